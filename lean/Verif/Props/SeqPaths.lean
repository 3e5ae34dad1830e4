import Verif.Model.SeqPaths
import Verif.Props.OtherScript

/-!
C145: which sequences the evaluation scripts evaluate, and under which names.
-/

namespace Norfair.Props

open Norfair Norfair.Spec

set_option linter.unusedSectionVars false

variable {K L D F X H G Tab Img S V R : Type}

/-- a name of a file or folder, as the file system has them -/
def FolderName (f : Str) : Prop := f ≠ [] ∧ '/' ∉ f

theorem pathTail_append_slash (a b : Str) : pathTail (a ++ '/' :: b) = pathTail b := by
  unfold pathTail
  rw [List.reverse_append, List.reverse_cons, List.append_assoc, List.takeWhile_append]
  split
  · rename_i h
    rw [(List.takeWhile_prefix _).eq_of_length h]
    simp
  · rfl

theorem pathTail_name {f : Str} (h : '/' ∉ f) : pathTail f = f := by
  have key : ∀ l : Str, '/' ∉ l → l.takeWhile (· ≠ '/') = l := by
    intro l
    induction l with
    | nil => intro _; rfl
    | cons c l ih =>
      intro h
      rw [List.mem_cons, not_or] at h
      rw [List.takeWhile_cons_of_pos (by simpa using fun e : c = '/' => h.1 e.symm), ih h.2]
  unfold pathTail
  rw [key _ (by simpa using h), List.reverse_reverse]

/-- **C145** The name of a sequence depends on the last part of its path only, not on the folder of the dataset: with and without a slash
at the end of the folder, for an empty one, and for an absolute path of the sequence. -/
theorem C145_name (a b : Str) : pathTail (pathJoin a b) = pathTail b := by
  unfold pathJoin
  split
  · rfl
  · split
    · rename_i h
      rcases h with rfl | h
      · rfl
      · obtain ⟨a', rfl⟩ : ∃ a', a = a' ++ ['/'] := by
          rw [List.getLast?_eq_some_iff] at h
          exact h
        rw [List.append_assoc]
        exact pathTail_append_slash a' b
    · exact pathTail_append_slash a b

/-- **C145** Without `--select-sequences` all folders in the folder of the dataset are evaluated, and nothing else, in the order in which
they are listed and each under its own name; so no two have the same name. Without a folder of the dataset they are those in the
current folder. -/
theorem C145_folder (dataset : Option Str) {entries : List (Str × Bool)} (hn : ∀ e ∈ entries, FolderName e.1)
    (hd : (entries.map (·.1)).Nodup) : ∃ ps, seqPaths dataset entries none = some ps ∧
      ps.map pathTail = (entries.filter (·.2)).map (·.1) ∧ (ps.map pathTail).Nodup ∧
      ∀ p, p ∈ ps ↔ ∃ f, (f, true) ∈ entries ∧ p = pathJoin (dataset.getD ['.']) f := by
  have h1 : ((entries.filter (·.2)).map fun e => pathJoin (dataset.getD ".".toList) e.1).map pathTail =
      (entries.filter (·.2)).map (·.1) := by
    rw [List.map_map]
    refine List.map_congr_left fun e he => ?_
    show pathTail (pathJoin _ e.1) = e.1
    rw [C145_name, pathTail_name (hn e (List.mem_filter.mp he).1).2]
  refine ⟨_, rfl, h1, ?_, fun p => ?_⟩
  · rw [h1]
    exact hd.sublist (List.filter_sublist.map _)
  · rw [List.mem_map]
    constructor
    · rintro ⟨⟨f, b⟩, he, rfl⟩
      obtain ⟨h, hb⟩ := List.mem_filter.mp he
      cases hb
      exact ⟨f, h, rfl⟩
    · rintro ⟨f, h, rfl⟩
      exact ⟨(f, true), List.mem_filter.mpr ⟨h, rfl⟩, rfl⟩

/-- **C145** With `--select-sequences` there is one path for each name that is given, in this order, and it has the last part of it as its
name. Two sequences have the same name exactly if these parts are the same. Whatever else is in the folder does not matter. -/
theorem C145_selected (ds : Str) (entries : List (Str × Bool)) (fs : List Str) : ∃ ps, seqPaths (some ds) entries (some fs) = some ps ∧
      ps = fs.map (pathJoin ds) ∧ ps.map pathTail = fs.map pathTail ∧ ((∀ f ∈ fs, '/' ∉ f) → ps.map pathTail = fs) := by
  have h : ∀ fs : List Str, (fs.mapM fun f => (some ds).map fun ds => pathJoin ds f) = some (fs.map (pathJoin ds)) := by
    intro fs
    induction fs with
    | nil => rfl
    | cons f fs ih => rw [List.mapM_cons, ih]; rfl
  have h1 : (fs.map (pathJoin ds)).map pathTail = fs.map pathTail := by
    rw [List.map_map]
    exact List.map_congr_left fun f _ => C145_name ds f
  refine ⟨_, h fs, rfl, h1, fun hf => ?_⟩
  rw [h1]
  conv_rhs => rw [← List.map_id fs]
  exact List.map_congr_left fun f hm => pathTail_name (hf f hm)

/-- **C145** (the negation, exactly where) It raises exactly with `--select-sequences` and without a folder of the dataset. -/
theorem C145_raises (dataset : Option Str) (entries : List (Str × Bool)) (sel : Option (List Str)) :
    seqPaths dataset entries sel = none ↔ dataset = none ∧ ∃ f fs, sel = some (f :: fs) := by
  cases dataset with
  | some ds =>
    refine ⟨fun h => ?_, fun h => by cases h.1⟩
    cases sel with
    | none => cases h
    | some fs =>
      obtain ⟨ps, e, -⟩ := C145_selected ds entries fs
      rw [e] at h
      cases h
  | none =>
    constructor
    · intro h
      cases sel with
      | none => cases h
      | some fs =>
        cases fs with
        | nil => cases h
        | cons f fs => exact ⟨rfl, f, fs, rfl⟩
    · rintro ⟨-, f, fs, rfl⟩
      show List.mapM _ (f :: fs) = none
      rw [List.mapM_cons]
      rfl

theorem mapM_load {load : Str → Option V} {pathOf : V → Str} (hp : ∀ p v, load p = some v → pathOf v = p) (ps : List Str) :
    ((∃ p ∈ ps, load p = none) → ps.mapM load = none) ∧
    ((∀ p ∈ ps, (load p).isSome) → ∃ vs, ps.mapM load = some vs ∧ vs.map pathOf = ps ∧ ∀ v ∈ vs, load (pathOf v) = some v) := by
  induction ps with
  | nil => exact ⟨by simp, fun _ => ⟨[], rfl, rfl, by simp⟩⟩
  | cons p ps ih =>
    rw [List.mapM_cons]
    constructor
    · rintro ⟨q, hq, h⟩
      rcases List.mem_cons.mp hq with rfl | hq
      · rw [h]; rfl
      · rw [ih.1 ⟨q, hq, h⟩]
        cases load p <;> rfl
    · intro h
      obtain ⟨v, hv⟩ := Option.isSome_iff_exists.mp (h p List.mem_cons_self)
      obtain ⟨vs, e1, e2, e3⟩ := ih.2 fun q hq => h q (List.mem_cons_of_mem _ hq)
      refine ⟨v :: vs, by rw [hv, e1]; rfl, by rw [List.map_cons, hp p v hv, e2], fun u hu => ?_⟩
      rcases List.mem_cons.mp hu with rfl | hu
      · rw [hp p u hv, hv]
      · exact e3 u hu

/-- **C145** Each of the scripts without `--select-sequences`: if there is a folder in the folder of the dataset that is not a sequence, it
raises. Otherwise the folders are evaluated; they have different names. -/
theorem C145_script (script : List V → Option R) (dataset : Option Str)
    {entries : List (Str × Bool)} (hn : ∀ e ∈ entries, FolderName e.1) (hd : (entries.map (·.1)).Nodup)
    {load : Str → Option V} {pathOf : V → Str} (hp : ∀ p v, load p = some v → pathOf v = p) :
    ((∃ f, (f, true) ∈ entries ∧ load (pathJoin (dataset.getD ['.']) f) = none) →
      scriptMain dataset entries none load script = none) ∧
    ((∀ f, (f, true) ∈ entries → (load (pathJoin (dataset.getD ['.']) f)).isSome) →
      ∃ vs, scriptMain dataset entries none load script = script vs ∧ (∀ v ∈ vs, load (pathOf v) = some v) ∧
        (vs.map fun v => pathTail (pathOf v)) = (entries.filter (·.2)).map (·.1) ∧ (vs.map fun v => pathTail (pathOf v)).Nodup) := by
  obtain ⟨ps, h1, h2, h3, h4⟩ := C145_folder dataset hn hd
  obtain ⟨l1, l2⟩ := mapM_load hp ps
  unfold scriptMain
  rw [h1, Option.bind_some]
  constructor
  · rintro ⟨f, hf, h⟩
    rw [l1 ⟨_, (h4 _).mpr ⟨f, hf, rfl⟩, h⟩]
    rfl
  · intro h
    obtain ⟨vs, e1, e2, e3⟩ := l2 fun p hp' => by
      obtain ⟨f, hf, rfl⟩ := (h4 p).mp hp'
      exact h f hf
    have e : (vs.map fun v => pathTail (pathOf v)) = ps.map pathTail := by rw [← e2, List.map_map]; rfl
    exact ⟨vs, by rw [e1]; rfl, e3, e.trans h2, e ▸ h3⟩

/-- **C145** Each of the scripts with `--select-sequences` and names without a slash: if one of them is not a sequence, it raises. Otherwise
exactly these are evaluated, in this order and under these names. -/
theorem C145_script_selected (script : List V → Option R) (ds : Str) (entries : List (Str × Bool)) {fs : List Str}
    (hf : ∀ f ∈ fs, '/' ∉ f) {load : Str → Option V} {pathOf : V → Str} (hp : ∀ p v, load p = some v → pathOf v = p) :
    ((∃ f ∈ fs, load (pathJoin ds f) = none) → scriptMain (some ds) entries (some fs) load script = none) ∧
    ((∀ f ∈ fs, (load (pathJoin ds f)).isSome) →
      ∃ vs, scriptMain (some ds) entries (some fs) load script = script vs ∧
        (∀ v ∈ vs, load (pathOf v) = some v) ∧ vs.map pathOf = fs.map (pathJoin ds) ∧
        (vs.map fun v => pathTail (pathOf v)) = fs) := by
  obtain ⟨ps, h1, rfl, -, h3⟩ := C145_selected ds entries fs
  obtain ⟨l1, l2⟩ := mapM_load hp (fs.map (pathJoin ds))
  unfold scriptMain
  rw [h1, Option.bind_some]
  constructor
  · rintro ⟨f, hf, h⟩
    rw [l1 ⟨_, List.mem_map.mpr ⟨f, hf, rfl⟩, h⟩]
    rfl
  · intro h
    obtain ⟨vs, e1, e2, e3⟩ := l2 fun p hp' => by
      obtain ⟨f, hf, rfl⟩ := List.mem_map.mp hp'
      exact h f hf
    refine ⟨vs, by rw [e1]; rfl, e3, e2, ?_⟩
    rw [← h3 hf, ← e2, List.map_map]
    rfl

section
variable [Field K] [LinearOrder K] [IsStrictOrderedRing K] [FloorRing K] [LinearOrder D] [OrderTop D] [Zero D] [DecidableEq L]

/-- **C145** The script with boxes by center, on all folders of a dataset in which each is a sequence: what it prints are the metrics of
these folders, each under its own name, with the boxes by center that the tracker returned. -/
theorem C145_center_partial {cfg : Cfg K L D F X} {Ok : F → Prop} (hL : FilterLaws cfg.flt Ok) (fmt : K → Str) (dr : EvalDraw K L H)
    (sortRows : List (List K) → List (List K)) (hs : SortsByFrame sortRows) (label : L) (extra : X)
    (mm : MotMetrics K G Tab) (gt : Str → G) (d : Disk) (dataset : Option Str) {entries : List (Str × Bool)}
    (hn : ∀ e ∈ entries, FolderName e.1) (hd : (entries.map (·.1)).Nodup) {load : Str → Option (FilmSeq K Img)}
    (hp : ∀ p v, load p = some v → v.path = p)
    (hload : ∀ f, (f, true) ∈ entries → ∃ v, load (pathJoin (dataset.getD ['.']) f) = some v ∧ TallOk v (framesIn v)) :
    ∃ vs : List (FilmSeq K Img), (vs.map fun v => pathTail v.path) = (entries.filter (·.2)).map (·.1) ∧
      (∀ v ∈ vs, load v.path = some v) ∧
      ∀ bss, seqsShown (centerShown cfg sortRows label extra) 0 vs = some bss → (∀ bs ∈ bss, bs.flatten.length ≠ 1) →
        ∀ text tab, mm.summary (List.zipWith (fun v bs => (pathTail v.path, gt v.path,
            (bs.zipIdx 1).flatMap fun f => f.1.map (frameOf f.2))) vs bss) mm.default true = some (text, tab) →
          xyahMain cfg fmt dr sortRows label extra mm gt false false [] d dataset entries none load = some (text, d) := by
  obtain ⟨ps, q1, q2, q3, q4⟩ := C145_folder dataset hn hd
  have hall : ∀ p ∈ ps, (load p).isSome := fun p hm => by
    obtain ⟨f, hf, rfl⟩ := (q4 p).mp hm
    obtain ⟨v, hv, -⟩ := hload f hf
    rw [hv]; rfl
  obtain ⟨vs, e1, e2, e3⟩ := (mapM_load (pathOf := FilmSeq.path) hp ps).2 hall
  have e : (vs.map fun v => pathTail v.path) = ps.map pathTail := by rw [← e2, List.map_map]; rfl
  have hv : ∀ v ∈ vs, TallOk v (framesIn v) := fun v hm => by
    obtain ⟨f, hf, he⟩ := (q4 v.path).mp (e2 ▸ List.mem_map.mpr ⟨v, hm, rfl⟩)
    obtain ⟨u, hu, hok⟩ := hload f hf
    have := e3 v hm
    rw [he, hu] at this
    cases this
    exact hok
  refine ⟨vs, e.trans q2, e3, fun bss h hne text tab hm => ?_⟩
  -- with an empty disk nothing is in the way, and nothing is written
  have key : ∀ d0 : Disk, xyahScript cfg fmt dr sortRows label extra mm gt false false [] d0 vs =
      (xyahScript cfg fmt dr sortRows label extra mm gt false false [] (fun _ => none) vs).map fun r => (r.1, d0) := by
    intro d0
    obtain ⟨-, -, acc, -, -, k⟩ := (otherAll_eq (fmt := fmt) (pathOf := FilmSeq.path)
      (run := fun g acc v => (xyahSeq cfg fmt dr sortRows label extra false g acc v).map (·.1)) false [] vs 0 Accum.init
      (fun v hm => center_shows hL fmt dr sortRows hs label extra (hv v hm))).2 bss h
    unfold xyahScript otherScript
    rw [k d0, k fun _ => none]
    simp only [Bool.false_eq_true, if_false, Option.map_some]
    rcases (AccReport.mk acc none).compute mm gt none true with ⟨s, _ | _⟩
    · simp only
      cases s.print <;> rfl
    · rfl
  obtain ⟨d', r, -⟩ := (C144_center_partial hL fmt dr sortRows hs label extra mm gt false false [] (fun _ => none) vs hv
    (e ▸ q3) (fun q _ t => by simp) (fun v _ => by simp) (by simp)).2 bss h hne text tab hm
  unfold xyahMain scriptMain
  rw [q1, Option.bind_some, e1, Option.bind_some, key, r]
  rfl

end

/-! ### Examples and witnesses -/

/-- C145_folder, C145_script: hypotheses, with two sequences and a file -/
example : (∀ e ∈ [("C".toList, true), ("readme.txt".toList, false), ("D".toList, true)], FolderName e.1) ∧
    ([("C".toList, true), ("readme.txt".toList, false), ("D".toList, true)].map (·.1)).Nodup ∧
    seqPaths (some "data".toList) [("C".toList, true), ("readme.txt".toList, false), ("D".toList, true)] none =
      some ["data/C".toList, "data/D".toList] ∧
    (∀ p v, ([intSeq, intSeqD].find? fun v => v.path = p) = some v → v.path = p) := by
  refine ⟨?_, by decide +kernel, by decide +kernel, fun p v h => by simpa using List.find?_some h⟩
  intro e he
  simp only [List.mem_cons, List.not_mem_nil, or_false] at he
  rcases he with rfl | rfl | rfl
  all_goals exact ⟨by decide, by decide⟩

/-- C145_script_selected: hypotheses -/
example : (∀ f ∈ ["D".toList, "C".toList], '/' ∉ f) ∧
    (∀ f ∈ ["D".toList, "C".toList], ([intSeq, intSeqD].find? fun v => v.path = pathJoin "data/".toList f).isSome) := by
  decide +kernel

/-- the script on this folder, and on one with the folder of an earlier output in it -/
example : ((evalMain intBoxCfg intStr toySort 0 () countMm (fun p => p) true true ["home".toList, "o".toList] homeDisk
      (some "data".toList) [("C".toList, true), ("readme.txt".toList, false), ("D".toList, true)] none
      fun p => [intSeq, intSeqD].find? fun v => v.path = p).map fun r => r.1) = some "C 3\nD 0\nOVERALL".toList ∧
    ((evalMain intBoxCfg intStr toySort 0 () countMm (fun p => p) true true ["home".toList, "o".toList] homeDisk
      (some "data".toList) [("C".toList, true), ("predictions".toList, true), ("D".toList, true)] none
      fun p => [intSeq, intSeqD].find? fun v => v.path = p).map fun r => r.1) = none := by
  decide +kernel

/-- C145_center_partial: hypotheses, and what is printed -/
example : (∀ e ∈ [("P".toList, true), ("E".toList, true)], FolderName e.1) ∧
    (∀ f, (f, true) ∈ [("P".toList, true), ("E".toList, true)] →
      ∃ v, ([filmSeq, twoSeq].find? fun v => v.path = pathJoin ((some "data".toList).getD ['.']) f) = some v ∧ TallOk v (framesIn v)) ∧
    (xyahMain (xyahCfg 0) wholeStr filmDraw toySort 0 () countMmQ (fun p => p) false false [] homeDisk (some "data".toList)
      [("P".toList, true), ("E".toList, true)] none fun p => [filmSeq, twoSeq].find? fun v => v.path = p).map (·.1) =
      some "P 8\nE 2\nOVERALL".toList := by
  refine ⟨?_, ?_, by decide +kernel⟩
  · intro e he
    simp only [List.mem_cons, List.not_mem_nil, or_false] at he
    rcases he with rfl | rfl
    all_goals exact ⟨by decide, by decide⟩
  · intro f hf
    simp only [List.mem_cons, List.not_mem_nil, or_false, Prod.mk.injEq, and_true] at hf
    rcases hf with rfl | rfl
    · exact ⟨filmSeq, List.find?_cons_of_pos (by decide +kernel), filmSeq_tall⟩
    · refine ⟨twoSeq, ?_, twoSeq_tall⟩
      rw [List.find?_cons_of_neg (by decide +kernel), List.find?_cons_of_pos (by decide +kernel)]

/-- the script with ByteTrack on a selection -/
example : (byteMain wholeStr toySort countMmQ (fun p => p) false false [] homeDisk (some "data".toList)
      [("P".toList, true), ("E".toList, true)] (some ["E".toList])
      fun p => ([filmSeq, twoSeq].find? fun v => v.path = p).map fun v => (v, tinyBytes true)).map (·.1) =
    some "E 2\nOVERALL".toList := by
  decide +kernel

/-- **C145** Not so: different names after `--select-sequences` are evaluated under different names, and all are in the folder of the
dataset. -/
theorem C145_false_selected :
    (seqPaths (some "data".toList) [] (some ["a/A".toList, "b/A".toList, "A/".toList, "B/".toList, "/x/C".toList])).map
      (fun ps => ps.map fun p => (p, pathTail p)) =
    some [("data/a/A".toList, "A".toList), ("data/b/A".toList, "A".toList), ("data/A/".toList, []), ("data/B/".toList, []),
      ("/x/C".toList, "C".toList)] := by
  decide +kernel

/-- **C145** Not so: `dataset_path` can be left out. With `--select-sequences` it raises. -/
theorem C145_false_default : seqPaths none [("A".toList, true)] (some ["A".toList]) = none ∧
    seqPaths none [("A".toList, true)] none = some ["./A".toList] := by
  decide +kernel

end Norfair.Props
