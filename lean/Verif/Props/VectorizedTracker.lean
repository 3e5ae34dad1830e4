import Verif.Spec.Rowwise
import Verif.Props.Parametric
import Verif.Props.TrackerRounds
import Verif.Props.IouSucceeds

/-! C92: a tracker with a vectorized distance is a tracker with a scalar one. -/

set_option linter.unusedSectionVars false

namespace Norfair.Props

open Norfair Norfair.Spec

variable {K L D F X : Type}

/-- the position of an element of a list among those that satisfy `p` -/
theorem getElem?_filter_countP {α : Type} (p : α → Bool) : ∀ (l : List α) (i : Nat) (a : α), l[i]? = some a →
    p a = true → (l.filter p)[(l.take i).countP p]? = some a
  | [], i, a, h, _ => by simp at h
  | x :: l, 0, a, h, hp => by
    simp only [List.getElem?_cons_zero, Option.some.injEq] at h
    subst h
    simp [hp]
  | x :: l, i + 1, a, h, hp => by
    simp only [List.getElem?_cons_succ] at h
    have ih := getElem?_filter_countP p l i a h hp
    rw [List.take_succ_cons, List.countP_cons, List.filter_cons]
    by_cases hx : p x = true
    · simp only [hx, if_true, List.getElem?_cons_succ]; exact ih
    · simp only [hx, Bool.false_eq_true, if_false, Nat.add_zero]; exact ih

section
variable [DecidableEq L]

/-- the matrices are equal -/
theorem vectorized_eq_scalar [Top D] {C O : Type} {str : L → String} (labC : C → L) (labO : O → L)
    (ptsC : C → List K) (ptsO : O → List K) {f : List (List K) → List (List K) → Option (Mat (Option D))}
    {g : List K → List K → Option (Option D)} (hfg : Rowwise f g) (objects : List O) (cands : List C)
    (hstr : ∀ c ∈ cands, ∀ o ∈ objects, str (labC c) = str (labO o) → labC c = labO o) :
    vectorizedDistances (fun c => str (labC c)) (fun o => str (labO o)) ptsC ptsO f objects cands =
      scalarDistances labC labO (fun c o => g (ptsC c) (ptsO o)) objects cands := by
  have hmem : ∀ {s : String} {i : Nat} {c : C}, cands[i]? = some c → str (labC c) = s →
      ((cands.filter fun c => str (labC c) = s).map ptsC)[(cands.take i).countP fun c => str (labC c) = s]? =
        some (ptsC c) := by
    intro s i c hc hs
    rw [List.getElem?_map, getElem?_filter_countP _ _ _ _ hc (by simpa using hs)]
    rfl
  have hmemo : ∀ {s : String} {j : Nat} {o : O}, objects[j]? = some o → str (labO o) = s →
      ((objects.filter fun c => str (labO c) = s).map ptsO)[(objects.take j).countP fun c => str (labO c) = s]? =
        some (ptsO o) := by
    intro s j o ho hs
    rw [List.getElem?_map, getElem?_filter_countP _ _ _ _ ho (by simpa using hs)]
    rfl
  have hne : ∀ {s : String} {c : C}, c ∈ cands → str (labC c) = s →
      ((cands.filter fun c => str (labC c) = s).map ptsC) ≠ [] := by
    intro s c hc hs e
    have : c ∈ cands.filter fun c => str (labC c) = s := List.mem_filter.mpr ⟨hc, by simpa using hs⟩
    rw [List.map_eq_nil_iff] at e
    rw [e] at this; cases this
  have hneo : ∀ {s : String} {o : O}, o ∈ objects → str (labO o) = s →
      ((objects.filter fun c => str (labO c) = s).map ptsO) ≠ [] := by
    intro s o ho hs e
    have : o ∈ objects.filter fun c => str (labO c) = s := List.mem_filter.mpr ⟨ho, by simpa using hs⟩
    rw [List.map_eq_nil_iff] at e
    rw [e] at this; cases this
  unfold vectorizedDistances scalarDistances
  simp only
  by_cases hex : ∃ c ∈ cands, ∃ o ∈ objects, labC c = labO o ∧ g (ptsC c) (ptsO o) = none
  · obtain ⟨c, hc, o, ho, hl, hg⟩ := hex
    rw [if_pos, if_pos]
    · simp only [List.any_eq_true]
      exact ⟨c, hc, o, ho, by rw [if_pos hl, hg]; rfl⟩
    · simp only [List.any_eq_true, Bool.and_eq_true, decide_eq_true_eq, Option.isNone_iff_eq_none]
      refine ⟨c, hc, o, ho, by rw [hl], ?_⟩
      refine (hfg _ _ (hne hc rfl) (hneo ho (by rw [hl]))).1.mpr ⟨ptsC c, ?_, ptsO o, ?_, hg⟩
      · exact List.mem_map_of_mem (List.mem_filter.mpr ⟨hc, by simp⟩)
      · exact List.mem_map_of_mem (List.mem_filter.mpr ⟨ho, by simp [hl]⟩)
  · have hsome : ∀ c ∈ cands, ∀ o ∈ objects, str (labC c) = str (labO o) →
        ∃ M, f ((cands.filter fun c' => str (labC c') = str (labC c)).map ptsC)
          ((objects.filter fun o => str (labO o) = str (labC c)).map ptsO) = some M := by
      intro c hc o ho hs
      cases e : f ((cands.filter fun c' => str (labC c') = str (labC c)).map ptsC)
          ((objects.filter fun o => str (labO o) = str (labC c)).map ptsO) with
      | some M => exact ⟨M, rfl⟩
      | none =>
        exfalso
        obtain ⟨a, ha, b, hb, hg⟩ := (hfg _ _ (hne hc rfl) (hneo ho hs.symm)).1.mp e
        obtain ⟨c', hc', rfl⟩ := List.mem_map.mp ha
        obtain ⟨o', ho', rfl⟩ := List.mem_map.mp hb
        obtain ⟨m1, e1⟩ := List.mem_filter.mp hc'
        obtain ⟨m2, e2⟩ := List.mem_filter.mp ho'
        simp only [decide_eq_true_eq] at e1 e2
        exact hex ⟨c', m1, o', m2, hstr c' m1 o' m2 (e1.trans e2.symm), hg⟩
    rw [if_neg, if_neg]
    · congr 2
      funext i j
      cases hi : cands[i]? with
      | none => rfl
      | some c =>
        cases hj : objects[j]? with
        | none => rfl
        | some o =>
          simp only
          have hc := List.mem_of_getElem? hi
          have ho := List.mem_of_getElem? hj
          by_cases hl : labC c = labO o
          · obtain ⟨M, hM⟩ := hsome c hc o ho (by rw [hl])
            rw [if_pos (by rw [hl]), if_pos hl, hM]
            simp only
            have := (hfg _ _ (hne hc rfl) (hneo ho (by rw [hl]))).2 M hM _ _ (hmem hi rfl) _ _ (hmemo hj (by rw [hl]))
            rw [this]
            rfl
          · rw [if_neg hl, if_neg fun h => hl (hstr c hc o ho h)]
            rfl
    · simp only [List.any_eq_true, not_exists, not_and]
      intro c hc o ho
      split
      · rename_i hl
        intro e
        exact hex ⟨c, hc, o, ho, hl, Option.isNone_iff_eq_none.mp e⟩
      · simp
    · simp only [List.any_eq_true, Bool.and_eq_true, decide_eq_true_eq, Option.isNone_iff_eq_none, not_exists, not_and]
      intro c hc o ho hs e
      obtain ⟨M, hM⟩ := hsome c hc o ho hs
      rw [hM] at e; cases e

end

section
variable [LinearOrder K] [Zero K] [LinearOrder D] [OrderTop D] [Zero D] [DecidableEq L]

theorem hitLoop_dist (cfg : Cfg K L D F X) (δ : DistFn K L D F X) (thr : D) (period : Int) (M : Mat D) (dets : List Ref)
    (keys : List Nat) (ps : List (Nat × Nat)) (w : World K L D F X) (out : StageOut Ref) :
    hitLoop { cfg with dist := δ } thr period M dets keys ps w out = hitLoop cfg thr period M dets keys ps w out := by
  induction ps generalizing w out with
  | nil => rfl
  | cons p ps ih =>
    obtain ⟨i, j⟩ := p
    have e : ∀ h g c o r, hitObj { cfg with dist := δ } h g c o r period = hitObj cfg h g c o r period :=
      fun _ _ _ _ _ => rfl
    unfold hitLoop
    simp only [ih, e]

theorem mergeLoop_dist (cfg : Cfg K L D F X) (δ : DistFn K L D F X) (thr : D) (M : Mat D) (cands keys : List Nat)
    (ps : List (Nat × Nat)) (w : World K L D F X) (out : StageOut Nat) :
    mergeLoop { cfg with dist := δ } thr M cands keys ps w out = mergeLoop cfg thr M cands keys ps w out := by
  induction ps generalizing w out with
  | nil => rfl
  | cons p ps ih =>
    obtain ⟨i, j⟩ := p
    have e : ∀ h o c, mergeObj { cfg with dist := δ } h o c = mergeObj cfg h o c := fun _ _ _ => rfl
    unfold mergeLoop
    simp only [ih, e]

/-- a call uses the distance only for its matrices -/
theorem update_dist {cfg : Cfg K L D F X} {δ : DistFn K L D F X}
    (h : ∀ heap objs dets, detDistances { cfg with dist := δ } heap objs dets = detDistances cfg heap objs dets)
    (w : World K L D F X) (dets : Option (List Ref)) (period : Int) (ct : Option (CoordTrans K)) :
    update { cfg with dist := δ } w dets period ct = update cfg w dets period ct := by
  have hs : ∀ w keys dets, stageDet { cfg with dist := δ } period w keys dets = stageDet cfg period w keys dets := by
    intro w keys dets
    unfold stageDet
    simp only [h, hitLoop_dist]
  have hr : ∀ w keys cands, reidStage { cfg with dist := δ } w keys cands = reidStage cfg w keys cands := by
    intro w keys cands
    unfold reidStage stageReid
    simp only [mergeLoop_dist]
  have hc : ∀ w dets, updateCore { cfg with dist := δ } w dets period ct = updateCore cfg w dets period ct := by
    intro w dets
    unfold updateCore
    simp only [hs, hr]
    rfl
  unfold update
  cases ct with
  | none =>
    cases dets with
    | none => exact hc w []
    | some l => exact hc w l
  | some c =>
    cases dets with
    | none => rfl
    | some l => exact hc _ l

/-- **C92** If the vectorized distance compares rows one by one, and different labels have different texts, every
call does exactly the same with the scalar distance. -/
theorem C92_update {cfg : Cfg K L D F X} {str : L → String} {f} (hf : cfg.dist = .vectorized str f)
    {g : List K → List K → Option (Option D)} (hfg : Rowwise f g) (hstr : Function.Injective str)
    (w : World K L D F X) (dets : Option (List Ref)) (period : Int) (ct : Option (CoordTrans K)) :
    update cfg w dets period ct = update { cfg with dist := rowDist cfg.flt g } w dets period ct := by
  refine (update_dist (fun heap objs dets => ?_) w dets period ct).symm
  unfold detDistances
  rw [hf]
  exact (vectorized_eq_scalar (fun r => (heap r).label) (fun o : Obj K L D F => o.label)
    (fun r => (heap r).points.data) (fun o => (o.estimate cfg.flt).data) hfg objs dets
    (fun _ _ _ _ e => hstr e)).symm

/-- **C92** ... and so does every sequence of calls -/
theorem C92_trace {cfg : Cfg K L D F X} {str : L → String} {f} (hf : cfg.dist = .vectorized str f)
    {g : List K → List K → Option (Option D)} (hfg : Rowwise f g) (hstr : Function.Injective str)
    {w w' : World K L D F X} {fs : List (Frame K L D F X)} :
    Trace cfg w fs w' ↔ Trace { cfg with dist := rowDist cfg.flt g } w fs w' := by
  have e := fun w => C92_update (cfg := cfg) (w := w) hf hfg hstr
  constructor
  · intro h
    induction h with
    | nil => exact .nil _
    | env heap g' _ he ih => exact .env heap g' ih he
    | @call fs w2 dets period ct _ ih =>
      rw [e w2 dets period ct]
      exact .call dets period ct ih
  · intro h
    induction h with
    | nil => exact .nil _
    | env heap g' _ he ih => exact .env heap g' ih he
    | @call fs w2 dets period ct _ ih =>
      rw [← e w2 dets period ct]
      exact .call dets period ct ih

/-- **C92** ... and the same states can be reached -/
theorem C92_reachable {cfg : Cfg K L D F X} {str : L → String} {f} (hf : cfg.dist = .vectorized str f)
    {g : List K → List K → Option (Option D)} (hfg : Rowwise f g) (hstr : Function.Injective str)
    {w : World K L D F X} : Reachable cfg w ↔ Reachable { cfg with dist := rowDist cfg.flt g } w := by
  have e := fun w => C92_update (cfg := cfg) (w := w) hf hfg hstr
  constructor
  · rintro ⟨w0, h0, h⟩
    refine ⟨w0, h0, ?_⟩
    induction h with
    | refl => exact .refl _
    | env heap g' _ he hp ih => exact .env heap g' ih he hp
    | @call w2 dets period ct _ hp ih =>
      rw [e w2 dets period ct]
      exact .call dets period ct ih hp
  · rintro ⟨w0, h0, h⟩
    refine ⟨w0, h0, ?_⟩
    induction h with
    | refl => exact .refl _
    | env heap g' _ he hp ih => exact .env heap g' ih he hp
    | @call w2 dets period ct _ hp ih =>
      rw [← e w2 dets period ct]
      exact .call dets period ct ih hp

/-- **C92** so what C64 says about scalar distances holds for vectorized ones: two rounds of greedy matching -/
theorem C92_two_greedy_rounds {cfg : Cfg K L D F X} {str : L → String} {f} (hf : cfg.dist = .vectorized str f)
    {g : List K → List K → Option (Option D)} (hfg : Rowwise f g) (hstr : Function.Injective str)
    {w w' : World K L D F X} (hw : Reachable cfg w) {dets : Option (List Ref)} {period : Int}
    {ct : Option (CoordTrans K)} {act : List (Obj K L D F)}
    (h : update cfg w dets period ct = (w', .ok act)) :
    ∃ h1 d1 d2 pairs1 pairs2 rest1 rest2,
      (∀ r, ∃ a, h1 r = { startHeap w dets ct r with age := a }) ∧
      Round (fun d v => g d.points.data (v.obj.estimate cfg.flt).data) cfg.thr (startHeap w dets ct)
        (compared cfg ct w.objs false) (dets.getD []) d1 pairs1 rest1 w'.objs ∧
      Round (fun d v => g d.points.data (v.obj.estimate cfg.flt).data) cfg.thr h1
        (compared cfg ct w.objs true) rest1 d2 pairs2 rest2 w'.objs ∧
      ∃ old news, w'.objs = old ++ news ∧ news.map (·.lastDet) = rest2 ∧
        (∀ o ∈ old, o.initId ∈ w.objs.map (·.initId)) ∧
        (∀ o ∈ news, o.initId ∉ w.objs.map (·.initId)) := by
  rw [C92_update hf hfg hstr] at h
  obtain ⟨h1, d1, d2, p1, p2, r1, r2, k1, k2, k3, old, news, k4, k5, k6, k7, _⟩ :=
    C64_two_greedy_rounds (cfg := { cfg with dist := rowDist cfg.flt g }) rfl
      ((C92_reachable hf hfg hstr).mp hw) h
  exact ⟨h1, d1, d2, p1, p2, r1, r2, k1, k2, k3, old, news, k4, k5, k6, k7⟩

end

section
variable [Field K] [LinearOrder K] [IsStrictOrderedRing K]

/-- `iou` of two rows -/
def iouRow (a b : List K) : Option (Option (WithTop K)) :=
  match Box.ofRow a, Box.ofRow b with
  | some a, some b => some ((iouPair a b).map fun x : K => (x : WithTop K))
  | _, _ => none

theorem mapM_ofRow {ls : List (List K)} :
    (∀ bs, ls.mapM Box.ofRow = some bs → ∀ (i : Nat) (a : List K), ls[i]? = some a → ∃ b, bs[i]? = some b ∧ Box.ofRow a = some b) ∧
    (ls.mapM Box.ofRow = none ↔ ∃ a ∈ ls, Box.ofRow a = none) := by
  induction ls with
  | nil =>
    constructor
    · intro bs _ i a h; simp at h
    · simp
  | cons l ls ih =>
    rw [List.mapM_cons]
    constructor
    · intro bs hbs i a h
      cases e1 : Box.ofRow l with
      | none => rw [e1] at hbs; cases hbs
      | some b =>
        cases e2 : ls.mapM Box.ofRow with
        | none => rw [e1, e2] at hbs; cases hbs
        | some cs =>
          rw [e1, e2] at hbs
          cases hbs
          cases i with
          | zero =>
            simp only [List.getElem?_cons_zero, Option.some.injEq] at h
            subst h
            exact ⟨b, rfl, e1⟩
          | succ i => exact ih.1 cs e2 i a h
    · cases e1 : Box.ofRow l with
      | none => simp [e1]
      | some b =>
        cases e2 : ls.mapM Box.ofRow with
        | none => simpa [e1] using ih.2.mp e2
        | some cs =>
          have := ih.2
          rw [e2] at this
          simpa [e1] using this

/-- **C92** `iou` compares rows one by one -/
theorem C92_iou_rowwise :
    Rowwise (fun cs os : List (List K) => (iou cs os).map fun M => M.map fun e => e.map fun x : K => (x : WithTop K))
      iouRow := by
  intro cs os hc ho
  obtain ⟨c1, c2⟩ := mapM_ofRow (ls := cs)
  obtain ⟨o1, o2⟩ := mapM_ofRow (ls := os)
  obtain ⟨a0, ha0⟩ := List.exists_mem_of_ne_nil _ hc
  obtain ⟨b0, hb0⟩ := List.exists_mem_of_ne_nil _ ho
  constructor
  · rw [Option.map_eq_none_iff]
    constructor
    · intro h
      unfold iou at h
      cases e1 : cs.mapM Box.ofRow with
      | none =>
        obtain ⟨a, ha, e⟩ := c2.mp e1
        exact ⟨a, ha, b0, hb0, by unfold iouRow; rw [e]⟩
      | some bs =>
        cases e2 : os.mapM Box.ofRow with
        | none =>
          obtain ⟨b, hb, e⟩ := o2.mp e2
          refine ⟨a0, ha0, b, hb, ?_⟩
          unfold iouRow; rw [e]
          cases Box.ofRow a0 <;> rfl
        | some ds => rw [e1, e2] at h; cases h
    · rintro ⟨a, ha, b, hb, h⟩
      unfold iou
      unfold iouRow at h
      cases e1 : Box.ofRow a with
      | none => rw [c2.mpr ⟨a, ha, e1⟩]
      | some x =>
        cases e2 : Box.ofRow b with
        | none =>
          rw [o2.mpr ⟨b, hb, e2⟩]
          cases cs.mapM Box.ofRow <;> rfl
        | some y => rw [e1, e2] at h; cases h
  · intro M hM i a ha j b hb
    simp only [iou] at hM
    cases e1 : cs.mapM Box.ofRow with
    | none => rw [e1] at hM; cases hM
    | some bs =>
      cases e2 : os.mapM Box.ofRow with
      | none => rw [e1, e2] at hM; cases hM
      | some ds =>
        rw [e1, e2] at hM
        cases hM
        obtain ⟨x, hx, ex⟩ := c1 bs e1 i a ha
        obtain ⟨y, hy, ey⟩ := o1 ds e2 j b hb
        unfold iouRow
        rw [ex, ey]
        simp only [Mat.map, hx, hy]

/-- **C92** a tracker with `iou` does exactly what it does with the scalar distance `iou` of two boxes -/
theorem C92_iou [DecidableEq L] {cfg : Cfg K L (WithTop K) F X} {str : L → String} (hd : cfg.dist = iouDistFn str)
    (hstr : Function.Injective str) (w : World K L (WithTop K) F X) (dets : Option (List Ref)) (period : Int)
    (ct : Option (CoordTrans K)) :
    update cfg w dets period ct = update { cfg with dist := rowDist cfg.flt iouRow } w dets period ct :=
  C92_update hd C92_iou_rowwise hstr w dets period ct

end

/-! ### Example -/

/-- the tracker of C91 with texts as labels -/
def textCfg {L : Type} (str : L → String) : Cfg ℚ L (WithTop ℚ) (NoFilter ℚ) Unit where
  dist := iouDistFn str
  thr := 1
  fill := 2
  hitCounterMax := 4
  initDelay := 1
  pwMax := 4
  detThr := 0
  flt := noFilterOps
  pastLen := 2
  reid := none
  reidThr := 0
  reidFill := 1
  reidMax := none

/-- two overlapping boxes -/
def heapText {L : Type} (a b : L) : Ref → Det ℚ L Unit
  | 0 => ⟨⟨2, 2, [0, 0, 10, 10]⟩, none, a, (), ⟨2, 2, [0, 0, 10, 10]⟩, none⟩
  | _ => ⟨⟨2, 2, [2, 1, 12, 11]⟩, none, b, (), ⟨2, 2, [2, 1, 12, 11]⟩, none⟩

/-- C92: two calls with texts as labels; the second box is matched -/
example : update (textCfg id) (update (textCfg id) ⟨heapText "a" "a", 0, 0, 0, []⟩ (some [0]) 1 none).1
      (some [1]) 1 none =
    update { textCfg id with dist := rowDist noFilterOps iouRow }
      (update (textCfg id) ⟨heapText "a" "a", 0, 0, 0, []⟩ (some [0]) 1 none).1 (some [1]) 1 none ∧
    (update (textCfg id) (update (textCfg id) ⟨heapText "a" "a", 0, 0, 0, []⟩ (some [0]) 1 none).1
      (some [1]) 1 none).1.objs.map (·.lastDet) = [1] :=
  ⟨C92_iou (cfg := textCfg id) rfl (fun _ _ h => h) _ _ _ _, by decide +kernel⟩

/-- **C92** (different labels must have different texts) With the labels `1` and `"1"` the second box is matched by
`iou`, and starts a new object with the scalar distance. -/
theorem C92_conflated_labels :
    let str : Nat ⊕ String → String := Sum.elim toString id
    let w := (update (textCfg str) ⟨heapText (.inl 1) (.inr "1"), 0, 0, 0, []⟩ (some [0]) 1 none).1
    (update (textCfg str) w (some [1]) 1 none).1.objs.map (·.lastDet) = [1] ∧
    (update { textCfg str with dist := rowDist noFilterOps iouRow } w (some [1]) 1 none).1.objs.map (·.lastDet) =
      [0, 1] := by decide +kernel

end Norfair.Props
