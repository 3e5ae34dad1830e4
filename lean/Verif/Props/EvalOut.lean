import Verif.Spec.EvalOut
import Verif.Props.MotLoop

/-! C141: what the evaluation leaves behind: the printed text, the file of the metrics and the files of the predictions. -/

namespace Norfair.Props

open Norfair Norfair.Spec

set_option linter.unusedSectionVars false

variable {K L D F X G Tab : Type}

/-! ### The disk -/

theorem makedirs_ok (l : List (List Str)) : ∀ d : Disk, (∀ q ∈ l, ∀ text, d q ≠ some (.file text)) →
    ∃ d', l.foldlM Disk.mkdir d = some d' ∧
      ∀ q, d' q = if q ∈ l then some .dir else d q := by
  induction l with
  | nil => intro d _; exact ⟨d, rfl, fun q => by simp⟩
  | cons p l ih =>
    intro d h
    have hp := h p (List.mem_cons_self ..)
    rw [List.foldlM_cons, Disk.mkdir]
    match hd : d p with
    | some .dir =>
      obtain ⟨d', h1, h2⟩ := ih d fun q hq => h q (List.mem_cons_of_mem _ hq)
      refine ⟨d', h1, fun q => ?_⟩
      rw [h2]
      by_cases e : q = p
      · subst e; simp [hd]
      · simp [e]
    | some (.file t) => exact absurd hd (hp t)
    | none =>
      obtain ⟨d', h1, h2⟩ := ih (d.put p .dir) fun q hq text => by
        unfold Disk.put
        by_cases e : q = p
        · simp [e]
        · rw [if_neg e]; exact h q (List.mem_cons_of_mem _ hq) text
      refine ⟨d', h1, fun q => ?_⟩
      rw [h2]
      unfold Disk.put
      by_cases e : q = p
      · simp [e]
      · simp [e]

theorem makedirs_raises (l : List (List Str)) : ∀ d : Disk, (∃ q ∈ l, ∃ text, d q = some (.file text)) →
    l.foldlM Disk.mkdir d = none := by
  induction l with
  | nil => rintro d ⟨q, hq, -⟩; cases hq
  | cons p l ih =>
    rintro d ⟨q, hq, text, hf⟩
    rw [List.foldlM_cons, Disk.mkdir]
    match hd : d p with
    | some .dir =>
      rcases List.mem_cons.mp hq with rfl | hq
      · rw [hd] at hf; cases hf
      · exact ih d ⟨q, hq, text, hf⟩
    | some (.file t) => rfl
    | none =>
      rcases List.mem_cons.mp hq with rfl | hq
      · rw [hd] at hf; cases hf
      · refine ih (d.put p .dir) ⟨q, hq, text, ?_⟩
        unfold Disk.put
        rw [if_neg]
        · exact hf
        · rintro rfl; rw [hd] at hf; cases hf

/-- a directory that can be made is there afterwards, and nothing else is changed -/
theorem ensure_ok {d : Disk} {p : List Str} (h : Clear d p) :
    ∃ d', d.ensure p = some d' ∧ d' p = some .dir ∧ ∀ q, KeptBut d d' p q := by
  unfold Disk.ensure
  match hd : d p with
  | some .dir => exact ⟨d, rfl, hd, fun q => .inl rfl⟩
  | some (.file t) => exact absurd hd (h p (List.prefix_refl _) t)
  | none =>
    obtain ⟨d', h1, h2⟩ := makedirs_ok p.inits d fun q hq => h q ((List.mem_inits _ _).mp hq)
    refine ⟨d', h1, by rw [h2, if_pos ((List.mem_inits _ _).mpr (List.prefix_refl _))], fun q => ?_⟩
    rw [KeptBut, h2]
    by_cases e : q ∈ p.inits
    · have hq := (List.mem_inits _ _).mp e
      match hd : d q with
      | some .dir => left; simp [e]
      | some (.file t) => exact absurd hd (h q hq t)
      | none => right; exact ⟨rfl, by simp [e], hq⟩
    · left; simp [e]

theorem not_prefix_snoc {α : Type} (p : List α) (x : α) : ¬ (p ++ [x]) <+: p := fun h => by
  have := h.length_le
  simp at this

/-- writing a text to a file, whose directory is made if it does not exist -/
theorem write_ok {d : Disk} {p : List Str} {name : Str} (h : Clear d p) (hf : d (p ++ [name]) ≠ some .dir) (text : Str) :
    ∃ d1 d2, d.ensure p = some d1 ∧ d1.openW p name = some d2 ∧
      (d2.put (p ++ [name]) (.file text)) (p ++ [name]) = some (.file text) ∧
      ∀ q, q ≠ p ++ [name] → KeptBut d (d2.put (p ++ [name]) (.file text)) p q := by
  obtain ⟨d1, h1, h2, h3⟩ := ensure_ok h
  have hk : d1 (p ++ [name]) = d (p ++ [name]) := by
    rcases h3 (p ++ [name]) with h | ⟨-, -, h⟩
    · exact h
    · exact absurd h (not_prefix_snoc _ _)
  refine ⟨d1, d1.put (p ++ [name]) (.file []), h1, ?_, by simp [Disk.put], fun q hq => ?_⟩
  · unfold Disk.openW
    rw [hk, h2]
    match hd : d (p ++ [name]) with
    | some .dir => exact absurd hd hf
    | some (.file t) => simp
    | none => simp
  · have := h3 q
    unfold KeptBut at this ⊢
    simpa [Disk.put, hq] using this

/-! ### `save_metrics` and `print_metrics` -/

/-- **C141** `save_metrics` writes the text of the last `compute_metrics` to the file, whatever was in it, makes the
directory if needed, and changes nothing else. It does not raise unless there is a file in the place of a directory or a
directory in the place of the file. -/
theorem C141_save_partial (s : AccReport K Tab) {d : Disk} {path : List Str} {name text : Str} {tab : Tab}
    (hs : s.summary = some (text, tab)) (h : Clear d path) (hf : d (path ++ [name]) ≠ some .dir) :
    ∃ d', s.save d path name = (d', false) ∧ d' (path ++ [name]) = some (.file text) ∧
      ∀ q, q ≠ path ++ [name] → KeptBut d d' path q := by
  obtain ⟨d1, d2, h1, h2, h3, h4⟩ := write_ok h hf text
  refine ⟨d2.put (path ++ [name]) (.file text), ?_, h3, h4⟩
  unfold AccReport.save
  simp only [h1, h2, hs]

/-- **C141** In the other cases it raises. For a disk on which the directory is missing or all on the way to it are
directories. -/
theorem C141_save_raises (s : AccReport K Tab) {d : Disk} {path : List Str} {name : Str}
    (hw : d path = some .dir → ∀ q, q <+: path → d q = some .dir)
    (h : s.summary = none ∨ ¬ Clear d path ∨ d (path ++ [name]) = some .dir) : (s.save d path name).2 = true := by
  by_cases hc : Clear d path
  · obtain ⟨d1, h1, h2, h3⟩ := ensure_ok hc
    unfold AccReport.save
    simp only [h1]
    cases ho : d1.openW path name with
    | none => rfl
    | some d2 =>
      rcases h with h | h | h
      · simp [h]
      · exact absurd hc h
      · exfalso
        have : d1 (path ++ [name]) = some .dir := by
          rcases h3 (path ++ [name]) with e | ⟨-, e, -⟩
          · rw [e, h]
          · exact e
        simp [Disk.openW, this] at ho
  · have : ∃ q, q <+: path ∧ ∃ text, d q = some (.file text) := by
      unfold Clear at hc
      push Not at hc
      exact hc
    obtain ⟨q, hq, text, hf⟩ := this
    unfold AccReport.save Disk.ensure
    match hd : d path with
    | some .dir => rw [hw hd q hq] at hf; cases hf
    | some (.file t) =>
      simp only [Option.isSome_some, if_true]
      cases ho : d.openW path name with
      | none => rfl
      | some d2 => unfold Disk.openW at ho; rw [hd] at ho; split at ho <;> simp at ho
    | none =>
      have := makedirs_raises path.inits d ⟨q, (List.mem_inits _ _).mpr hq, text, hf⟩
      simp only [Option.isSome_none, Bool.false_eq_true, if_false, Disk.makedirs, this]

section
variable [Ring K] [LinearOrder K]

/-- **C141** Whatever calls come before and after it, as long as there is no later `compute_metrics`: what is printed and
saved are the metrics of what the accumulators had when `compute_metrics` was called, with the metrics asked for. Later
predictions are not in it, and a later call that raises does no harm. -/
theorem C141_last (mm : MotMetrics K G Tab) (gt : Str → G) (pre post : List (AccOp K)) (metrics : Option (List Str))
    (overall : Bool) (s0 : AccReport K Tab × Disk) {s : AccReport K Tab × Disk} (hpre : pre.foldl (accStep mm gt) s0 = s)
    {cs : List (Str × G × List (MotFrame K))} (hc : evalMotchallenge gt s.1.acc.matrixes s.1.acc.paths = some cs)
    {text : Str} {tab : Tab} (hm : mm.summary cs (metrics.getD mm.default) overall = some (text, tab))
    (hpost : ∀ op ∈ post, ∀ m o, op ≠ .compute m o) :
    ((pre ++ .compute metrics overall :: post).foldl (accStep mm gt) s0).1.print = some text ∧
    ∀ {path name}, Clear ((pre ++ .compute metrics overall :: post).foldl (accStep mm gt) s0).2 path →
      ((pre ++ .compute metrics overall :: post).foldl (accStep mm gt) s0).2 (path ++ [name]) ≠ some .dir →
      ((pre ++ AccOp.compute metrics overall :: post ++ [AccOp.save path name]).foldl (accStep mm gt) s0).2 (path ++ [name]) =
        some (.file text) := by
  have key : ((pre ++ .compute metrics overall :: post).foldl (accStep mm gt) s0).1.summary = some (text, tab) := by
    rw [List.foldl_append, hpre, List.foldl_cons]
    have h1 : (accStep mm gt s (.compute metrics overall)).1.summary = some (text, tab) := by
      simp only [accStep, AccReport.compute, hc, hm]
    generalize accStep mm gt s (.compute metrics overall) = s1 at h1
    induction post generalizing s1 with
    | nil => exact h1
    | cons op post ih =>
      rw [List.foldl_cons]
      refine ih (fun op h => hpost op (List.mem_cons_of_mem _ h)) _ ?_
      have := hpost op (List.mem_cons_self ..)
      cases op with
      | compute m o => exact absurd rfl (this m o)
      | create => exact h1
      | update => exact h1
      | save => exact h1
      | print => exact h1
  refine ⟨by rw [AccReport.print, key]; rfl, fun {path name} hcl hf => ?_⟩
  rw [List.foldl_append, List.foldl_cons, List.foldl_nil]
  obtain ⟨d', h1, h2, -⟩ := C141_save_partial (name := name) _ key hcl hf
  show (AccReport.save _ _ path name).1 _ = _
  rw [h1]
  exact h2

/-- **C141** A `compute_metrics` that raises keeps the metrics of the one before. -/
theorem C141_compute_raises (mm : MotMetrics K G Tab) (gt : Str → G) (s : AccReport K Tab) (metrics : Option (List Str))
    (overall : Bool) (h : (s.compute mm gt metrics overall).2 = true) : (s.compute mm gt metrics overall).1 = s := by
  unfold AccReport.compute at h ⊢
  split
  · rfl
  · rename_i cs hc
    simp only [hc] at h ⊢
    split
    · rfl
    · rename_i r hr
      simp [hr] at h

end

/-! ### The script -/

/-- a matrix with exactly one row cannot be loaded, and then there is no comparison at all -/
theorem evalMot_one [Ring K] [LinearOrder K] (gt : Str → G) {mats : List (PredMat K)} {paths : List Str} (hl : mats.length = paths.length)
    {r : MotRow K} (h : PredMat.flat r ∈ mats) : evalMotchallenge gt mats paths = none := by
  have hmap : ∀ {A B : Type} (f : A → Option B) (l : List A) (a : A), a ∈ l → f a = none → l.mapM f = none := by
    intro A B f l a ha hf
    induction l with
    | nil => cases ha
    | cons b l ih =>
      rw [List.mapM_cons]
      rcases List.mem_cons.mp ha with rfl | ha
      · rw [hf]; rfl
      · rw [ih ha]
        cases f b <;> rfl
  obtain ⟨k, hk, e⟩ := List.getElem_of_mem h
  unfold evalMotchallenge
  rw [hmap _ _ (paths[k]'(hl ▸ hk), k) (List.mk_mem_zipIdx_iff_getElem?.mpr (List.getElem?_eq_getElem _))
    (by simp [List.getElem?_eq_getElem hk, e, loadMotchallenge])]

theorem matOf_one [Ring K] {bs : List (List (BoxPred K))} (h : bs.flatten.length = 1) : ∃ r, matOf (videoRows 1 bs) = .flat r := by
  have hlen : ∀ (fs : List (List (BoxPred K))) (k : Nat), (videoRows k fs).length = fs.flatten.length := by
    intro fs
    induction fs with
    | nil => intro k; rfl
    | cons f fs ih =>
      intro k
      have := ih (k + 1)
      simp only [videoRows] at this ⊢
      simp [List.zipIdx_cons, this]
  rw [← hlen bs 1] at h
  obtain ⟨r, e⟩ := List.length_eq_one_iff.mp h
  exact ⟨r, by rw [e]; rfl⟩

/-- writing the files one after the other -/
def writePreds (out : List Str) : Disk → List (Str × Str) → Option Disk
  | d, [] => some d
  | d, f :: fs => (writePred out d f.1 f.2).bind fun d => writePreds out d fs

/-- the files of predictions have these texts, and nothing else is changed -/
theorem writePreds_ok (out : List Str) (fs : List (Str × Str)) : ∀ d : Disk, Clear d (out ++ ["predictions".toList]) →
    (∀ f ∈ fs, d (predFileOf out f.1) ≠ some .dir) → (fs.map fun f => pathTail f.1).Nodup →
    ∃ d', writePreds out d fs = some d' ∧ (∀ f ∈ fs, d' (predFileOf out f.1) = some (.file f.2)) ∧
      ∀ q, (∀ f ∈ fs, q ≠ predFileOf out f.1) → KeptBut d d' (out ++ ["predictions".toList]) q := by
  induction fs with
  | nil => intro d _ _ _; exact ⟨d, rfl, by simp, fun q _ => .inl rfl⟩
  | cons f fs ih =>
    intro d hc hf hn
    rw [List.map_cons, List.nodup_cons] at hn
    obtain ⟨d1, d2, h1, h2, h3, h4⟩ := write_ok (name := pathTail f.1 ++ ".txt".toList) hc (hf f (List.mem_cons_self ..)) f.2
    have hne : ∀ g ∈ fs, predFileOf out g.1 ≠ predFileOf out f.1 := by
      intro g hg e
      unfold predFileOf at e
      have e := List.append_inj_right' e rfl
      rw [List.cons.injEq] at e
      have e := List.append_inj_left' e.1 rfl
      exact hn.1 (e ▸ List.mem_map.mpr ⟨g, hg, rfl⟩)
    have hpre : ∀ g : Str × Str, ¬ predFileOf out g.1 <+: out ++ ["predictions".toList] := fun g => not_prefix_snoc _ _
    have hw : writePred out d f.1 f.2 = some (d2.put (predFileOf out f.1) (.file f.2)) := by
      unfold writePred predFileOf
      rw [h1]
      simp only [Option.bind_some, h2, Option.map_some, List.append_assoc]
      rfl
    rw [show out ++ ["predictions".toList] ++ [pathTail f.1 ++ ".txt".toList] = predFileOf out f.1 from rfl] at h3 h4
    generalize d2.put (predFileOf out f.1) (.file f.2) = d3 at *
    obtain ⟨d', i1, i2, i3⟩ := ih d3 (fun q hq text e => by
        rcases h4 q (fun he => hpre f (he ▸ hq)) with h | ⟨-, h, -⟩
        · exact hc q hq text (h ▸ e)
        · rw [h] at e; cases e) (fun g hg e => by
        rcases h4 _ (hne g hg) with h | ⟨-, -, h⟩
        · exact hf g (List.mem_cons_of_mem _ hg) (h ▸ e)
        · exact hpre g h) hn.2
    refine ⟨d', ?_, fun g hg => ?_, fun q hq => ?_⟩
    · rw [writePreds, hw]; exact i1
    · rcases List.mem_cons.mp hg with rfl | hg
      · rcases i3 _ (fun g' hg' => (hne g' hg').symm) with h | ⟨-, -, h⟩
        · rw [h, h3]
        · exact absurd h (hpre g)
      · exact i2 g hg
    · have a := h4 q (hq f (List.mem_cons_self ..))
      have b := i3 q fun g hg => hq g (List.mem_cons_of_mem _ hg)
      rcases b with b | ⟨b1, b2, b3⟩
      · rcases a with a | ⟨a1, a2, a3⟩
        · exact .inl (b.trans a)
        · exact .inr ⟨a1, b.trans a2, a3⟩
      · rcases a with a | ⟨-, a2, -⟩
        · exact .inr ⟨a ▸ b1, b2, b3⟩
        · rw [a2] at b1; cases b1

section
variable [Ring K] [LinearOrder K] [LinearOrder D] [OrderTop D] [Zero D] [DecidableEq L]

/-- the loop over the sequences does the same as without the disk, and writes the texts in order -/
theorem evalAll_eq (cfg : Cfg K L D F X) (fmt : K → Str) (sortRows : List (List K) → List (List K)) (label : L) (extra : X)
    (savePred : Bool) (out : List Str) (vs : List (MotSeq K)) : ∀ (g : Nat) (acc : Accum K) (d : Disk),
    evalAll cfg fmt sortRows label extra savePred out g acc d vs =
      (motAll cfg fmt sortRows label extra g acc vs).bind fun r =>
        (if savePred then writePreds out d (List.zipWith (fun v f => (v.path, f.text)) vs r.1) else some d).map (r.2, ·) := by
  induction vs with
  | nil => intro g acc d; simp [evalAll, motAll, writePreds]
  | cons v vs ih =>
    intro g acc d
    rw [evalAll, motAll]
    cases motSeq cfg fmt sortRows label extra g acc v with
    | none => rfl
    | some r =>
      obtain ⟨g1, file, acc1⟩ := r
      dsimp only
      cases savePred with
      | false =>
        simp only [Bool.false_eq_true, if_false, ih]
        cases motAll cfg fmt sortRows label extra g1 acc1 vs <;> rfl
      | true =>
        simp only [if_true]
        cases hw : writePred out d v.path file.text with
        | none =>
          cases motAll cfg fmt sortRows label extra g1 acc1 vs with
          | none => rfl
          | some r => simp [writePreds, hw]
        | some d1 =>
          simp only [ih, if_true]
          cases motAll cfg fmt sortRows label extra g1 acc1 vs with
          | none => rfl
          | some r => simp [writePreds, hw]

/-- **C141** The script `motmetrics4norfair.py` raises if the tracker raises in one of the sequences. Otherwise it prints
the metrics of the comparison of C105 with all metrics and the overall row. With `--save-metrics` the same text is in
`metrics.txt`. With `--save-pred` there is a file for every sequence, with the lines of its frames. Nothing else on the
disk is changed, except for the directories of these files. -/
theorem C141_script_partial {cfg : Cfg K L D F X} {Ok : F → Prop} (hL : FilterLaws cfg.flt Ok) (fmt : K → Str)
    (sortRows : List (List K) → List (List K)) (hs : SortsByFrame sortRows) (label : L) (extra : X)
    (mm : MotMetrics K G Tab) (gt : Str → G) (savePred saveMetrics : Bool) (out : List Str) (d : Disk)
    (vs : List (MotSeq K × Nat)) (hv : ∀ p ∈ vs, MotOk p.1 p.2) (hn : (vs.map fun p => pathTail p.1.path).Nodup)
    (hc : Clear d (out ++ ["predictions".toList])) (hp : ∀ p ∈ vs, d (predFileOf out p.1.path) ≠ some .dir)
    (hf : d (out ++ ["metrics.txt".toList]) ≠ some .dir) :
    (seqsTrack cfg sortRows label extra 0 vs = none →
      evalScript cfg fmt sortRows label extra mm gt savePred saveMetrics out d (vs.map (·.1)) = none) ∧
    ∀ actss, seqsTrack cfg sortRows label extra 0 vs = some actss → (∀ acts ∈ actss, acts.flatten.length ≠ 1) →
      ∀ text tab, mm.summary (List.zipWith (fun p acts => (pathTail p.1.path, gt p.1.path,
          (acts.zipIdx 1).flatMap fun f => f.1.map fun o => frameOf f.2 (boxOfObj cfg.flt o))) vs actss)
        mm.default true = some (text, tab) →
      ∃ d', evalScript cfg fmt sortRows label extra mm gt savePred saveMetrics out d (vs.map (·.1)) = some (text, d') ∧
        (saveMetrics = true → d' (out ++ ["metrics.txt".toList]) = some (.file text)) ∧
        (savePred = true → ∀ r ∈ List.zip vs actss, d' (predFileOf out r.1.1.path) = some (.file
          (runText fmt 1 (r.2.map fun act => ⟨(act.map (boxOfObj cfg.flt)).map BoxPred.pred, none⟩)))) ∧
        ∀ q, (saveMetrics = true → q ≠ out ++ ["metrics.txt".toList]) →
          (savePred = true → ∀ p ∈ vs, q ≠ predFileOf out p.1.path) →
          d' q = d q ∨ (d q = none ∧ d' q = some .dir ∧
            (savePred = true ∧ q <+: out ++ ["predictions".toList] ∨ saveMetrics = true ∧ q <+: out)) := by
  obtain ⟨h1, h2⟩ := motAll_some (cfg := cfg) hL fmt sortRows hs label extra vs 0 Accum.init hv
  obtain ⟨-, g2⟩ := C105_evaluation (cfg := cfg) hL fmt sortRows hs label extra gt vs hv hn
  unfold evalScript
  rw [evalAll_eq]
  constructor
  · intro h; rw [h1 h]; rfl
  · intro actss h hne text tab hm
    obtain ⟨files, acc, e1, e2, e3, e4, e5⟩ := h2 actss h
    have hev := g2 actss h hne
    unfold motEval at hev
    rw [e1] at hev ⊢
    simp only [Option.bind_some] at hev ⊢
    have hlen : files.length = vs.length := by
      have := congrArg List.length e5
      simpa [e3] using this
    -- the files of the predictions
    have hw : ∃ d1, (if savePred then writePreds out d (List.zipWith (fun v f => (v.path, f.text)) (vs.map (·.1)) files)
          else some d) = some d1 ∧
        (savePred = true → ∀ r ∈ List.zip vs actss, d1 (predFileOf out r.1.1.path) = some (.file
          (runText fmt 1 (r.2.map fun act => ⟨(act.map (boxOfObj cfg.flt)).map BoxPred.pred, none⟩)))) ∧
        ∀ q, (savePred = true → ∀ p ∈ vs, q ≠ predFileOf out p.1.path) →
          d1 q = d q ∨ (d q = none ∧ d1 q = some .dir ∧ savePred = true ∧ q <+: out ++ ["predictions".toList]) := by
      cases savePred with
      | false => exact ⟨d, rfl, by simp, fun q _ => .inl rfl⟩
      | true =>
        have hz : List.zipWith (fun v f => (v.path, f.text)) (vs.map (·.1)) files =
            List.zipWith (fun (p : MotSeq K × Nat) acts => (p.1.path, runText fmt 1 (acts.map fun act =>
              ⟨(act.map (boxOfObj cfg.flt)).map BoxPred.pred, none⟩))) vs actss := by
          have a : List.zipWith (fun (v : MotSeq K) (f : PredFile) => (v.path, f.text)) (vs.map (·.1)) files =
              List.zipWith (fun p t => (p.1.path, t)) vs (files.map (·.text)) := by
            rw [List.zipWith_map_left, List.zipWith_map_right]
          rw [a, e5, List.zipWith_map_right]
        rw [if_pos rfl, hz]
        have hfst : ∀ (vs : List (MotSeq K × Nat)) (actss : List (List (List (Obj K L D F)))), actss.length = vs.length →
            (List.zipWith (fun (p : MotSeq K × Nat) acts => (p.1.path, runText fmt 1 (acts.map fun act =>
              ⟨(act.map (boxOfObj cfg.flt)).map BoxPred.pred, none⟩))) vs actss).map (fun f => f.1) =
            vs.map fun p => p.1.path := by
          intro vs
          induction vs with
          | nil => intro actss _; rfl
          | cons p vs ih =>
            intro actss hl
            cases actss with
            | nil => simp at hl
            | cons a as => rw [List.zipWith_cons_cons, List.map_cons, ih as (by simpa using hl)]; rfl
        have hfst := hfst vs actss e3
        have hmem : ∀ f ∈ List.zipWith (fun (p : MotSeq K × Nat) acts => (p.1.path, runText fmt 1 (acts.map fun act =>
              ⟨(act.map (boxOfObj cfg.flt)).map BoxPred.pred, none⟩))) vs actss, ∃ p ∈ vs, f.1 = p.1.path := by
          intro f hf
          have : f.1 ∈ vs.map fun p => p.1.path := hfst ▸ List.mem_map.mpr ⟨f, hf, rfl⟩
          obtain ⟨p, hp, e⟩ := List.mem_map.mp this
          exact ⟨p, hp, e.symm⟩
        obtain ⟨d1, w1, w2, w3⟩ := writePreds_ok out _ d hc (fun f hf => by
            obtain ⟨p, hp', e⟩ := hmem f hf
            rw [e]; exact hp p hp') (by
            have := congrArg (List.map pathTail) hfst
            rw [List.map_map] at this
            rw [show (fun f : Str × Str => pathTail f.1) = pathTail ∘ fun f => f.1 from rfl, this, List.map_map]
            exact hn)
        refine ⟨d1, w1, fun _ r hr => ?_, fun q hq => ?_⟩
        · refine w2 (r.1.1.path, _) ?_
          rw [← List.map_uncurry_zip_eq_zipWith]
          exact List.mem_map.mpr ⟨r, hr, rfl⟩
        · rcases w3 q (fun f hf => by
              obtain ⟨p, hp', e⟩ := hmem f hf
              rw [e]; exact hq rfl p hp') with w | ⟨a, b, c⟩
          · exact .inl w
          · exact .inr ⟨a, b, rfl, c⟩
    obtain ⟨d1, w1, w2, w3⟩ := hw
    rw [w1]
    simp only [Option.map_some]
    have hcomp : (AccReport.mk acc none).compute mm gt none true = (⟨acc, some (text, tab)⟩, false) := by
      simp only [AccReport.compute, hev, Option.getD_none, hm]
    rw [hcomp]
    simp only [AccReport.print, Option.map_some]
    cases saveMetrics with
    | false =>
      refine ⟨d1, rfl, by simp, w2, fun q _ hq => ?_⟩
      rcases w3 q hq with w | ⟨a, b, c⟩
      · exact .inl w
      · exact .inr ⟨a, b, .inl c⟩
    | true =>
      have hlenm : ∀ path, out ++ ["metrics.txt".toList] ≠ predFileOf out path := fun path e => by
        have := congrArg List.length e
        simp [predFileOf] at this
      have hmet : d1 (out ++ ["metrics.txt".toList]) = d (out ++ ["metrics.txt".toList]) := by
        rcases w3 _ (fun _ p _ => hlenm _) with w | ⟨-, -, -, w⟩
        · exact w
        · exfalso
          have h := List.prefix_append_right_inj out |>.mp w
          revert h
          decide +kernel
      have hcl : Clear d1 out := fun q hq t e => by
        rcases w3 q (fun _ p _ e => by
            have := hq.length_le
            simp [e, predFileOf] at this) with w | ⟨-, w, -⟩
        · exact hc q (hq.trans (List.prefix_append ..)) t (w ▸ e)
        · rw [w] at e; cases e
      obtain ⟨d', s1, s2, s3⟩ := C141_save_partial (name := "metrics.txt".toList) (⟨acc, some (text, tab)⟩ : AccReport K Tab)
        rfl hcl (hmet ▸ hf)
      rw [if_pos rfl, s1]
      refine ⟨d', rfl, fun _ => s2, fun hsp r hr => ?_, fun q hq1 hq2 => ?_⟩
      · rcases s3 _ (hlenm r.1.1.path).symm with s | ⟨-, -, s⟩
        · rw [s]; exact w2 hsp r hr
        · exfalso
          have := s.length_le
          simp [predFileOf] at this
      · rcases s3 q (hq1 rfl) with s | ⟨a, b, c⟩
        · rw [s]
          rcases w3 q hq2 with w | ⟨a, b, c⟩
          · exact .inl w
          · exact .inr ⟨a, b, .inl c⟩
        · rcases w3 q hq2 with w | ⟨-, w, -⟩
          · exact .inr ⟨w ▸ a, b, .inr ⟨rfl, c⟩⟩
          · rw [w] at a; cases a

/-- **C141** (the negation, exactly where) If the tracker returned exactly one object in all frames of one sequence together, the script
raises, whatever is in the other sequences and on the disk. -/
theorem C141_script_raises {cfg : Cfg K L D F X} {Ok : F → Prop} (hL : FilterLaws cfg.flt Ok) (fmt : K → Str)
    (sortRows : List (List K) → List (List K)) (hs : SortsByFrame sortRows) (label : L) (extra : X)
    (mm : MotMetrics K G Tab) (gt : Str → G) (savePred saveMetrics : Bool) (out : List Str) (d : Disk)
    (vs : List (MotSeq K × Nat)) (hv : ∀ p ∈ vs, MotOk p.1 p.2) {actss : List (List (List (Obj K L D F)))}
    (h : seqsTrack cfg sortRows label extra 0 vs = some actss) (hone : ∃ acts ∈ actss, acts.flatten.length = 1) :
    evalScript cfg fmt sortRows label extra mm gt savePred saveMetrics out d (vs.map (·.1)) = none := by
  obtain ⟨-, h2⟩ := motAll_some (cfg := cfg) hL fmt sortRows hs label extra vs 0 Accum.init hv
  obtain ⟨files, acc, e1, e2, e3, e4, -⟩ := h2 actss h
  unfold evalScript
  rw [evalAll_eq, e1]
  simp only [Option.bind_some]
  cases (if savePred then writePreds out d (List.zipWith (fun v f => (v.path, f.text)) (vs.map (·.1)) files) else some d) with
  | none => rfl
  | some d1 =>
    obtain ⟨acts, ha, h1⟩ := hone
    have hfl : (acts.map fun act => act.map (boxOfObj cfg.flt)).flatten.length = 1 := by
      simpa [List.length_flatten, Function.comp_def] using h1
    obtain ⟨r, hr⟩ := matOf_one hfl
    obtain ⟨s, c1, c2, c3⟩ := C57_videos_partial
      (List.zipWith (fun p acts => (⟨p.1.path, acts.map fun act => act.map (boxOfObj cfg.flt)⟩ : Vid K)) vs actss)
      (by
        intro q hq
        rw [← List.map_uncurry_zip_eq_zipWith] at hq
        obtain ⟨⟨p, acts⟩, hm, rfl⟩ := List.mem_map.mp hq
        have hp := hv p (List.of_mem_zip hm).1
        have hl := e4 _ hm
        intro he
        have := hp.pos
        have h0 := congrArg List.length he
        simp [Function.uncurry] at h0
        simp [h0] at hl
        omega)
    rw [e2] at c1
    cases c1
    have hn : evalMotchallenge gt acc.matrixes acc.paths = none := by
      refine evalMot_one (r := r) gt (by rw [c2, c3]; simp) ?_
      obtain ⟨k, hk, e⟩ := List.getElem_of_mem ha
      have hkv : k < vs.length := e3 ▸ hk
      rw [c3, ← hr, ← e]
      refine List.mem_map.mpr ⟨⟨(vs[k]'hkv).1.path, actss[k].map fun act => act.map (boxOfObj cfg.flt)⟩, ?_, rfl⟩
      rw [← List.map_uncurry_zip_eq_zipWith]
      exact List.mem_map.mpr ⟨(vs[k]'hkv, actss[k]), by
        rw [← List.getElem_zip (h := by simp [hk, hkv])]; exact List.getElem_mem _, rfl⟩
    simp only [Option.map_some, AccReport.compute, hn]

end

/-! ### Examples and witnesses -/

/-- another sequence, in which nothing is returned -/
def intSeqD : MotSeq ℤ := ⟨"data/D".toList, .int 2, [[1, -1, 5, 5, 10, 12, 1], [4, -1, 6, 5, 10, 12, 1]], [none, none]⟩

/-- a summary that counts the rows of each sequence -/
def countMm : MotMetrics ℤ Str Nat where
  default := ["mota".toList, "idf1".toList]
  summary cs ms overall := some ((cs.flatMap fun c => c.1 ++ " ".toList ++ intStr c.2.2.length ++ "\n".toList) ++
    (if overall then "OVERALL".toList else []), ms.length)

/-- there is a directory `home`, with an old file of metrics in `home/o` -/
def homeDisk : Disk := fun p =>
  if p = [] ∨ p = ["home".toList] ∨ p = ["home".toList, "o".toList] then some .dir
  else if p = ["home".toList, "o".toList, "metrics.txt".toList] then some (.file "old".toList)
  else none

/-- C141_script_partial: the hypotheses hold ... -/
example : (∀ p ∈ [(intSeq, 3), (intSeqD, 2)], MotOk p.1 p.2) ∧
    ([(intSeq, 3), (intSeqD, 2)].map fun p => pathTail p.1.path).Nodup ∧ SortsByFrame (K := ℤ) toySort ∧
    FilterLaws intBoxCfg.flt NoFilter.Ok ∧ Clear homeDisk ["home".toList, "o".toList, "predictions".toList] ∧
    (∀ p ∈ [(intSeq, 3), (intSeqD, 2)], homeDisk (predFileOf ["home".toList, "o".toList] p.1.path) ≠ some .dir) ∧
    homeDisk (["home".toList, "o".toList] ++ ["metrics.txt".toList]) ≠ some .dir ∧
    ((seqsTrack intBoxCfg toySort 0 () 0 [(intSeq, 3), (intSeqD, 2)]).map fun actss =>
      actss.map fun acts => acts.flatten.length) = some [3, 0] := by
  refine ⟨?_, by decide +kernel, toySort_sorts, noFilter_laws, ?_, by decide +kernel, by decide +kernel, by decide +kernel⟩
  · intro p hp
    simp only [List.mem_cons, List.not_mem_nil, or_false] at hp
    rcases hp with rfl | rfl
    · exact ⟨by decide, ⟨7, by decide, by decide⟩, rfl, by decide, rfl, by simp [intSeq]⟩
    · exact ⟨by decide, ⟨7, by decide, by decide⟩, rfl, by decide, rfl, by simp [intSeqD]⟩
  · intro q hq text
    have hq := (List.mem_inits _ _).mpr hq
    simp only [List.inits_cons, List.inits, List.map_cons, List.map_nil, List.mem_cons, List.not_mem_nil, or_false] at hq
    rcases hq with rfl | rfl | rfl | rfl
    · rw [show homeDisk _ = some .dir by decide +kernel]; simp
    · rw [show homeDisk _ = some .dir by decide +kernel]; simp
    · rw [show homeDisk _ = some .dir by decide +kernel]; simp
    · rw [show homeDisk _ = none by decide +kernel]; simp

/-- C141_script_raises: with boxes in two frames, and objects that are returned from the second one on -/
example : MotOk ⟨"data/D".toList, .int 2, [[1, -1, 5, 5, 10, 12, 1], [2, -1, 5, 5, 10, 12, 1]], [none, none]⟩ 2 ∧
    ((seqsTrack intBoxCfg toySort 0 () 0 [(⟨"data/D".toList, .int 2, [[1, -1, 5, 5, 10, 12, 1], [2, -1, 5, 5, 10, 12, 1]],
      [none, none]⟩, 2)]).map fun actss => actss.map fun acts => acts.flatten.length) = some [1] :=
  ⟨⟨by decide, ⟨7, by decide, by decide⟩, rfl, by decide, rfl, by simp⟩, by decide +kernel⟩

/-- ... and this is what is printed, in the file of the metrics, and in the files of the predictions -/
example : ((evalScript intBoxCfg intStr toySort 0 () countMm (fun p => p) true true ["home".toList, "o".toList] homeDisk
      [intSeq, intSeqD]).map fun r => (String.ofList r.1, r.2 ["home".toList, "o".toList, "metrics.txt".toList],
        r.2 ["home".toList, "o".toList, "predictions".toList, "C.txt".toList],
        r.2 ["home".toList, "o".toList, "predictions".toList, "D.txt".toList])) =
    some ("C 3\nD 0\nOVERALL", some (.file "C 3\nD 0\nOVERALL".toList),
      some (.file ("2,1,6,5,10,12,-1,-1,-1,-1\n3,1,6,5,10,12,-1,-1,-1,-1\n3,2,61,5,10,12,-1,-1,-1,-1\n".toList)),
      some (.file [])) := by
  decide +kernel

/-- C141_save_partial, C141_last: hypotheses -/
example : Clear homeDisk ["home".toList] ∧ homeDisk (["home".toList] ++ ["m".toList]) ≠ some .dir ∧
    ∃ cs, evalMotchallenge (fun p => p) (Accum.init (K := ℤ)).matrixes (Accum.init (K := ℤ)).paths = some cs ∧
      countMm.summary cs (none.getD countMm.default) true = some ("OVERALL".toList, 2) := by
  refine ⟨fun q hq text => ?_, by decide +kernel, [], by decide +kernel, by decide +kernel⟩
  have hq := (List.mem_inits _ _).mpr hq
  simp only [List.inits_cons, List.inits, List.map_cons, List.map_nil, List.mem_cons, List.not_mem_nil, or_false] at hq
  rcases hq with rfl | rfl
  · rw [show homeDisk _ = some .dir by decide +kernel]; simp
  · rw [show homeDisk _ = some .dir by decide +kernel]; simp

/-- C141_save_raises: hypotheses, for a directory below a file -/
example : (homeDisk ["home".toList, "o".toList, "metrics.txt".toList, "x".toList] = some .dir →
      ∀ q, q <+: ["home".toList, "o".toList, "metrics.txt".toList, "x".toList] → homeDisk q = some .dir) ∧
    ¬ Clear homeDisk ["home".toList, "o".toList, "metrics.txt".toList, "x".toList] := by
  constructor
  · rw [show homeDisk _ = none by decide +kernel]
    simp
  · intro h
    exact h ["home".toList, "o".toList, "metrics.txt".toList] ⟨["x".toList], rfl⟩ "old".toList (by decide +kernel)

/-- C141_compute_raises: a video with exactly one prediction -/
example : ((AccReport.mk ⟨[.flat ⟨1, some 1, 0, 0, 2, 2, -1, -1, -1, -1⟩], ["A".toList], none⟩
    (some ("old".toList, 2))).compute countMm (fun p => p) none true).2 = true := by
  decide +kernel

/-- **C141** Not so: a `save_metrics` that raises leaves the disk as it was. Without metrics it raises, but the old file is
already empty. -/
theorem C141_false_kept : ((AccReport.mk (Accum.init (K := ℤ)) (none : Option (Str × Nat))).save homeDisk
      ["home".toList, "o".toList] "metrics.txt".toList).2 = true ∧
    homeDisk ["home".toList, "o".toList, "metrics.txt".toList] = some (.file "old".toList) ∧
    ((AccReport.mk (Accum.init (K := ℤ)) (none : Option (Str × Nat))).save homeDisk
      ["home".toList, "o".toList] "metrics.txt".toList).1 ["home".toList, "o".toList, "metrics.txt".toList] =
        some (.file []) := by
  decide +kernel

/-- **C141** Not so: the saved metrics are those of all predictions so far. Those after `compute_metrics` are not in it. -/
theorem C141_false_stale :
    ([AccOp.create "A".toList (.int 2), .update (some []), .update (some []), .compute none true,
      .create "B".toList (.int 1), .update (some [])].foldl (accStep countMm fun p => p) (⟨Accum.init, none⟩, homeDisk)).1.print =
      some "A 0\nOVERALL".toList := by
  decide +kernel

/-- **C141** Not so: every sequence has its file of predictions and its row of metrics. If the names of the sequences are
given with a slash at the end, as shells complete them, all have the empty name: there is one file, `.txt`, with the
predictions of the last one, and only the last one is compared. -/
theorem C141_false_slash :
    ((evalScript intBoxCfg intStr toySort 0 () countMm (fun p => p) true true ["home".toList, "o".toList] homeDisk
      [{ intSeq with path := "data/C/".toList }, { intSeqD with path := "data/D/".toList }]).map fun r =>
        (String.ofList r.1, r.2 ["home".toList, "o".toList, "predictions".toList, "C.txt".toList],
          r.2 ["home".toList, "o".toList, "predictions".toList, ".txt".toList])) =
    some (" 0\nOVERALL", none, some (.file [])) := by
  decide +kernel

end Norfair.Props
