import Verif.Model.ByteLoop
import Verif.Props.MotLoop

/-! C125: the evaluation of ByteTrack on MOTChallenge data. -/

set_option linter.unusedSectionVars false

namespace Norfair.Props

open Norfair Norfair.Spec

variable {K S : Type}

/-- what a tracker returns in a sequence of calls -/
def byteOutputs (tr : ByteOps K S) : S → List (List (List K)) → List (List (ByteObj K))
  | _, [] => []
  | s, c :: cs => (tr.update s c).2 :: byteOutputs tr (tr.update s c).1 cs

/-- the rows of `det.txt` that belong to frame `k`, as corners and score, in the order of the file sorted by frames -/
def byteRows [Ring K] [LinearOrder K] (sortRows : List (List K) → List (List K)) (rows : List (List K)) (n : Nat) :
    List (List (List K)) :=
  (List.range' 1 n).map fun k : Nat => ((sortRows rows).filter fun r => r.head? == some (k : K)).map fun r =>
    [r.getD 2 0, r.getD 3 0, r.getD 2 0 + r.getD 4 0, r.getD 3 0 + r.getD 5 0, r.getD 6 0]

/-- as a prediction -/
def boxOfByte (o : ByteObj K) : BoxPred K := ⟨o.trackId, o.x0, o.y0, o.x1, o.y1⟩

/-- A sequence of `n` frames: at least two detections in the file, in rows of the same length, which is at least 7 -/
structure ByteOk (rows : List (List K)) (n : Nat) : Prop where
  two : 2 ≤ rows.length
  width : ∃ m, 7 ≤ m ∧ ∀ r ∈ rows, r.length = m
  pos : 1 ≤ n

/-- the objects that are shown in each frame if `objs` were shown before -/
def byteShown (tr : ByteOps K S) : S → List (ByteObj K) → List (List (List K)) → List (List (ByteObj K))
  | _, _, [] => []
  | s, objs, c :: cs =>
    if c = [] then objs :: byteShown tr s objs cs
    else (tr.update s c).2 :: byteShown tr (tr.update s c).1 (tr.update s c).2 cs

theorem byteShown_length (tr : ByteOps K S) (cs : List (List (List K))) : ∀ s objs, (byteShown tr s objs cs).length = cs.length := by
  induction cs with
  | nil => intros; rfl
  | cons c cs ih => intro s objs; unfold byteShown; split <;> simp [ih]

theorem byteShown_get (tr : ByteOps K S) (cs : List (List (List K))) : ∀ s objs (k : Nat), k < cs.length →
    (byteShown tr s objs cs)[k]? =
      some ((byteOutputs tr s ((cs.take (k + 1)).filter fun c => !c.isEmpty)).getLast?.getD objs) := by
  induction cs with
  | nil => intro s objs k hk; simp at hk
  | cons c cs ih =>
    intro s objs k hk
    unfold byteShown
    cases c with
    | nil =>
      rw [if_pos rfl]
      cases k with
      | zero => simp [byteOutputs]
      | succ k =>
        rw [List.getElem?_cons_succ, ih s objs k (by simpa using hk)]
        simp
    | cons r c =>
      rw [if_neg (by simp)]
      cases k with
      | zero => simp [byteOutputs]
      | succ k =>
        rw [List.getElem?_cons_succ, ih _ _ k (by simpa using hk)]
        rw [List.take_succ_cons, List.filter_cons_of_pos (by simp)]
        simp only [byteOutputs, List.getLast?_cons, Option.getD_some]

theorem byteShown_all (tr : ByteOps K S) (cs : List (List (List K))) : ∀ s objs, (∀ c ∈ cs, c ≠ []) →
    byteShown tr s objs cs = byteOutputs tr s cs := by
  induction cs with
  | nil => intros; rfl
  | cons c cs ih =>
    intro s objs h
    unfold byteShown byteOutputs
    rw [if_neg (h c List.mem_cons_self), ih _ _ fun c hc => h c (List.mem_cons_of_mem _ hc)]

section
variable [Ring K] [LinearOrder K]

theorem byteFrames_eq (tr : ByteOps K S) (fmt : K → Str) (ds : List (List (ParsedDet K))) :
    ∀ (s : ByteState K S) (rows : List (List (List K))), ds.mapM (fun l => l.mapM byteDet) = some rows →
    (byteFrames tr fmt s ds).map (fun s => (s.file, s.acc)) =
      (predRun fmt s.file ((byteShown tr s.tracker s.objs rows).map fun os =>
          ⟨(os.map boxOfByte).map BoxPred.pred, none⟩)).bind fun file =>
        (accUpdates s.acc ((byteShown tr s.tracker s.objs rows).map fun os => os.map boxOfByte)).map fun acc => (file, acc) := by
  induction ds with
  | nil => intro s rows h; cases h; rfl
  | cons dets ds ih =>
    intro s rows h
    rw [List.mapM_cons] at h
    obtain ⟨r, hr, h⟩ := Option.bind_eq_some_iff.mp h
    obtain ⟨rs, hrs, h⟩ := Option.bind_eq_some_iff.mp h
    cases h
    unfold byteFrames
    rw [hr]
    simp only
    have e : byteShown tr s.tracker s.objs (r :: rs) =
        (if r.length > 0 then tr.update s.tracker r else (s.tracker, s.objs)).2 ::
          byteShown tr (if r.length > 0 then tr.update s.tracker r else (s.tracker, s.objs)).1
            (if r.length > 0 then tr.update s.tracker r else (s.tracker, s.objs)).2 rs := by
      rw [byteShown]
      cases r with
      | nil => simp
      | cons _ _ => simp
    rw [e]
    generalize (if r.length > 0 then tr.update s.tracker r else (s.tracker, s.objs)) = t
    have hp : t.2.map ByteObj.static = (t.2.map boxOfByte).map BoxPred.pred := by
      rw [List.map_map]; rfl
    rw [hp]
    simp only [List.map_cons, predRun, accUpdates]
    rcases hf : s.file.update fmt ((t.2.map boxOfByte).map BoxPred.pred) none with ⟨file, _ | _⟩
    · simp only
      rcases hacc : s.acc.update (some ((t.2.map boxOfByte).map BoxPred.pred)) with ⟨acc, _ | _⟩
      · exact ih ⟨t.1, t.2, file, acc⟩ rs hrs
      · cases predRun fmt file _ <;> rfl
    · rfl

theorem byteDet_rows (sortRows : List (List K) → List (List K)) (rows : List (List K)) (n : Nat) :
    (seqDets sortRows rows n).mapM (fun l => l.mapM byteDet) = some (byteRows sortRows rows n) := by
  unfold seqDets byteRows
  rw [List.mapM_map]
  generalize List.range' 1 n = ks
  induction ks with
  | nil => rfl
  | cons k ks ih =>
    rw [List.mapM_cons, ih]
    have : (((sortRows rows).filter fun r => r.head? == some (k : K)).map detOf).mapM byteDet =
        some (((sortRows rows).filter fun r => r.head? == some (k : K)).map fun r =>
          [r.getD 2 0, r.getD 3 0, r.getD 2 0 + r.getD 4 0, r.getD 3 0 + r.getD 5 0, r.getD 6 0]) := by
      generalize (sortRows rows).filter (fun r => r.head? == some (k : K)) = l
      induction l with
      | nil => rfl
      | cons a l ih => rw [List.map_cons, List.mapM_cons, ih]; rfl
    rw [Function.comp, this]
    rfl

/-- what a sequence writes, with the objects shown in each frame -/
theorem byteSeq_eq (tr : ByteOps K S) (fmt : K → Str) (sortRows : List (List K) → List (List K))
    (hs : SortsByFrame sortRows) (acc : Accum K) (path : Str) {rows : List (List K)} {n : Nat} (hv : ByteOk rows n) :
    ∃ file acc', byteSeq tr fmt sortRows acc path (.int n) rows = some (file, acc') ∧ file.closed = true ∧
      file.text = runText fmt 1 ((byteShown tr tr.fresh [] (byteRows sortRows rows n)).map fun os =>
        ⟨(os.map boxOfByte).map BoxPred.pred, none⟩) ∧ acc'.paths = acc.paths ++ [path] ∧
      acc'.matrixes = acc.matrixes ++ [matOf (videoRows 1 ((byteShown tr tr.fresh [] (byteRows sortRows rows n)).map
        fun os => os.map boxOfByte))] := by
  obtain ⟨m, hm, hw⟩ := hv.width
  have hp := C56_read_partial sortRows hs rows hv.two m hm hw n
  have hcr : acc.create path (.int n) = ((acc.create path (.int n)).1, false) := rfl
  unfold byteSeq
  rw [hp]
  simp only
  rw [hcr]
  simp only
  have he := byteFrames_eq tr fmt (seqDets sortRows rows n)
    ⟨tr.fresh, [], PredFile.init (.int n), (acc.create path (.int n)).1⟩ _ (byteDet_rows sortRows rows n)
  unfold seqDets at he
  rw [he]
  simp only
  have hlen : (byteShown tr tr.fresh [] (byteRows sortRows rows n)).length = n := by
    rw [byteShown_length]; simp [byteRows]
  generalize byteShown tr tr.fresh [] (byteRows sortRows rows n) = shown at hlen ⊢
  have hpos := hv.pos
  obtain ⟨file, f1, f2, f3, -⟩ := C55_file fmt n (shown.map fun os => ⟨(os.map boxOfByte).map BoxPred.pred, none⟩)
    (by
      intro q hq p hp
      obtain ⟨os, -, rfl⟩ := List.mem_map.mp hq
      obtain ⟨b, -, rfl⟩ := List.mem_map.mp hp
      exact ⟨b.id, b.x0, b.y0, b.x1, b.y1, [], [], [], rfl, rfl⟩)
    (by rw [List.drop_eq_nil_of_le (by simp [hlen, hpos])]; simp)
  obtain ⟨acc', a1, a2, a3⟩ := C57_video_partial acc path n hpos (shown.map fun os => os.map boxOfByte) (by simp [hlen])
  refine ⟨file, acc', ?_, f3.mpr (by simp [hlen, hpos]), f2, a2, by rw [a3, if_pos (by simp [hlen])]⟩
  rw [f1, Option.bind_some, a1]
  rfl

/-- **C125** What the evaluation does, exactly: it never raises, and the text file and the matrix of the accumulator have the
same objects. These are, in each frame, the objects of the last call, where the tracker is called in the frames with
detections only. -/
theorem C125_frames (tr : ByteOps K S) (fmt : K → Str) (sortRows : List (List K) → List (List K))
    (hs : SortsByFrame sortRows) (acc : Accum K) (path : Str) {rows : List (List K)} {n : Nat} (hv : ByteOk rows n) :
    ∃ file acc', ∃ shown : List (List (ByteObj K)), byteSeq tr fmt sortRows acc path (.int n) rows = some (file, acc') ∧ file.closed = true ∧
      file.text = runText fmt 1 (shown.map fun os => ⟨(os.map boxOfByte).map BoxPred.pred, none⟩) ∧
      acc'.paths = acc.paths ++ [path] ∧
      acc'.matrixes = acc.matrixes ++ [matOf (videoRows 1 (shown.map fun os => os.map boxOfByte))] ∧ shown.length = n ∧
      ∀ k, k < n → shown[k]? = some ((byteOutputs tr tr.fresh
        (((byteRows sortRows rows n).take (k + 1)).filter fun c => !c.isEmpty)).getLast?.getD []) := by
  obtain ⟨file, acc', h1, h2, h3, h4, h5⟩ := byteSeq_eq tr fmt sortRows hs acc path hv
  exact ⟨file, acc', _, h1, h2, h3, h4, h5, by rw [byteShown_length]; simp [byteRows],
    fun k hk => byteShown_get tr _ _ _ k (by simpa [byteRows] using hk)⟩

/-- **C125** (the part that holds) If there are detections in every frame, the tracker is called in every frame, and what is
written for a frame is what it returned in this frame. -/
theorem C125_outputs_partial (tr : ByteOps K S) (fmt : K → Str) (sortRows : List (List K) → List (List K))
    (hs : SortsByFrame sortRows) (acc : Accum K) (path : Str) {rows : List (List K)} {n : Nat} (hv : ByteOk rows n)
    (hall : ∀ k : Nat, 1 ≤ k → k ≤ n → ∃ r ∈ rows, r.head? = some (k : K)) :
    ∃ file acc', byteSeq tr fmt sortRows acc path (.int n) rows = some (file, acc') ∧ file.closed = true ∧
      file.text = runText fmt 1 ((byteOutputs tr tr.fresh (byteRows sortRows rows n)).map fun os =>
        ⟨(os.map boxOfByte).map BoxPred.pred, none⟩) ∧ acc'.paths = acc.paths ++ [path] ∧
      acc'.matrixes = acc.matrixes ++ [matOf (videoRows 1 ((byteOutputs tr tr.fresh (byteRows sortRows rows n)).map
        fun os => os.map boxOfByte))] := by
  have h := byteSeq_eq tr fmt sortRows hs acc path hv
  rwa [byteShown_all] at h
  intro c hc
  obtain ⟨k, hk, rfl⟩ := List.mem_map.mp hc
  rw [List.mem_range'] at hk
  obtain ⟨i, hi, rfl⟩ := hk
  obtain ⟨r, hr, e⟩ := hall (1 + 1 * i) (by omega) (by omega)
  have hmem : r ∈ (sortRows rows).filter fun r => r.head? == some ((1 + 1 * i : Nat) : K) :=
    List.mem_filter.mpr ⟨((hs rows).1.mem_iff).mpr hr, by simp [e]⟩
  exact List.ne_nil_of_mem (List.mem_map_of_mem hmem)

end

/-! ### Examples -/

/-- a tracker that gives each detection the number of the call as its id, and forgets at once -/
def callCounter : ByteOps ℤ Nat where
  fresh := 0
  update s c := (s + 1, c.map fun r => ⟨r.getD 0 0, r.getD 1 0, r.getD 2 0, r.getD 3 0, s⟩)

/-- detections in the first and in the third frame only -/
def byteGap : List (List ℤ) := [[1, -1, 2, 3, 4, 5, 1], [3, -1, 3, 3, 4, 5, 1]]

/-- detections in both frames -/
def byteFull : List (List ℤ) := [[2, -1, 3, 3, 4, 5, 1], [1, -1, 2, 3, 4, 5, 1]]

example : SortsByFrame (K := ℤ) toySort ∧ ByteOk byteGap 3 ∧ ByteOk byteFull 2 ∧
    (∀ k : Nat, 1 ≤ k → k ≤ 2 → ∃ r ∈ byteFull, r.head? = some (k : ℤ)) := by
  refine ⟨toySort_sorts, ⟨by decide, ⟨7, by decide, by decide⟩, by decide⟩, ⟨by decide, ⟨7, by decide, by decide⟩, by decide⟩, ?_⟩
  intro k h1 h2
  obtain rfl | rfl : k = 1 ∨ k = 2 := by omega
  · exact ⟨_, List.mem_cons_of_mem _ List.mem_cons_self, rfl⟩
  · exact ⟨_, List.mem_cons_self, rfl⟩

/-- **C125** is false with a frame without detections: the boxes of the frame before are written for it again, though the
tracker would return none; and in the next frame the tracker does not know of it. -/
theorem C125_false_gap :
    (byteSeq callCounter intStr toySort Accum.init "data/G".toList (.int 3) byteGap).map (fun r => r.1.text) =
      some "1,0,2,3,4,5,-1,-1,-1,-1\n2,0,2,3,4,5,-1,-1,-1,-1\n3,1,3,3,4,5,-1,-1,-1,-1\n".toList ∧
    (byteOutputs callCounter callCounter.fresh (byteRows toySort byteGap 3)).map (fun os => os.map fun o => (o.x0, o.trackId)) =
      [[(2, 0)], [], [(3, 2)]] := by decide +kernel

end Norfair.Props
