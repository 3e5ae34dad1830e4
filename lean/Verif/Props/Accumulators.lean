import Verif.Model.Metrics
import Verif.Props.MotFiles

/-!
C57, C72: `Accumulators` and the comparison with the ground truth.
-/

namespace Norfair.Props

open Norfair

variable {K : Type}

section
variable [Ring K]

/-- a matrix of predictions with these rows: no rows give an empty list, one row a plain list -/
def matOf : List (MotRow K) → PredMat K
  | [] => .empty
  | [r] => .flat r
  | rs => .rows rs

/-- the row of a prediction in a frame -/
def motRowOf (frame : Nat) (b : BoxPred K) : MotRow K :=
  ⟨frame, some b.id, b.x0, b.y0, b.x1 - b.x0, b.y1 - b.y0, -1, -1, -1, -1⟩

omit [Ring K] in
theorem push_matOf (rs : List (MotRow K)) (r : MotRow K) : (matOf rs).push r = matOf (rs ++ [r]) := by
  match rs with
  | [] => rfl
  | [q] => rfl
  | q :: q' :: rs => rfl

theorem pushAll_matOf (frame : Nat) (bs : List (BoxPred K)) (rs : List (MotRow K)) :
    pushAll frame (matOf rs) (bs.map BoxPred.pred) = (matOf (rs ++ bs.map (motRowOf frame)), false) := by
  induction bs generalizing rs with
  | nil => simp [pushAll]
  | cons b bs ih =>
    have : motRow frame b.pred = some (motRowOf frame b) := rfl
    rw [List.map_cons, pushAll, this]
    simp only
    rw [push_matOf, ih]
    simp

/-- several updates; `none` if one raises -/
def accUpdates : Accum K → List (List (BoxPred K)) → Option (Accum K)
  | s, [] => some s
  | s, bs :: l =>
    match s.update (some (bs.map BoxPred.pred)) with
    | (_, true) => none
    | (s, false) => accUpdates s l

/-- the rows of the predictions of several frames, the first of which has number `k` -/
def videoRows (k : Nat) (frames : List (List (BoxPred K))) : List (MotRow K) :=
  (frames.zipIdx k).flatMap fun f => f.1.map (motRowOf f.2)

theorem videoRows_append (k : Nat) (a b : List (List (BoxPred K))) :
    videoRows k (a ++ b) = videoRows k a ++ videoRows (k + a.length) b := by
  simp [videoRows, List.zipIdx_append]

/-- what `update` does to a video for which `r` frames are left -/
theorem update_step (mats : List (PredMat K)) (paths : List Str) (k r : Nat) (rs : List (MotRow K))
    (bs : List (BoxPred K)) :
    (Accum.mk mats paths (some ⟨k, matOf rs, some r⟩)).update (some (bs.map BoxPred.pred)) =
      (⟨mats ++ if r = 0 then [matOf (rs ++ bs.map (motRowOf k))] else [], paths,
        some ⟨k + 1, matOf (rs ++ bs.map (motRowOf k)), some (r - 1)⟩⟩, false) := by
  unfold Accum.update
  simp only [pushAll_matOf]
  cases r <;> simp

theorem accUpdates_spec (frames : List (List (BoxPred K))) : ∀ (mats : List (PredMat K)) (paths : List Str)
    (k r : Nat) (rs : List (MotRow K)),
    accUpdates ⟨mats, paths, some ⟨k, matOf rs, some r⟩⟩ frames =
      some ⟨mats ++ (List.range' (r + 1) (frames.length - r)).map fun j =>
          matOf (rs ++ videoRows k (frames.take j)), paths,
        some ⟨k + frames.length, matOf (rs ++ videoRows k frames), some (r - frames.length)⟩⟩ := by
  induction frames with
  | nil => intro mats paths k r rs; simp [accUpdates, videoRows]
  | cons bs frames ih =>
    intro mats paths k r rs
    rw [accUpdates, update_step]
    simp only
    rw [ih]
    have hv : ∀ l, videoRows k (bs :: l) = bs.map (motRowOf k) ++ videoRows (k + 1) l := fun l => by
      simp [videoRows, List.zipIdx_cons]
    simp only [hv, List.append_assoc, List.length_cons]
    have e1 : k + 1 + frames.length = k + (frames.length + 1) := by omega
    have e2 : r - 1 - frames.length = r - (frames.length + 1) := by omega
    rw [e1, e2]
    congr 3
    · cases r with
      | zero =>
        simp only [if_true, Nat.zero_sub, Nat.sub_zero, List.range'_succ, List.map_cons, Nat.zero_add]
        rw [← List.map_add_range' (s := 1) (a := 1), List.map_map]
        simp [hv, videoRows, Function.comp_def, Nat.add_comm 1]
      | succ r =>
        simp only [Nat.succ_ne_zero, if_false, List.append_nil, Nat.add_sub_cancel,
          Nat.add_sub_add_right]
        have : List.range' (r + 1 + 1) (frames.length - r) = (List.range' (r + 1) (frames.length - r)).map (1 + ·) := by
          rw [List.map_add_range', Nat.add_comm 1]
        rw [this, List.map_map]
        simp [hv, Function.comp_def, Nat.add_comm 1]

/-- C57: After `create_accumulator` for a video of `n ≥ 1` frames, any number of updates up to `n`: nothing is
stored before the `n`-th update, which stores the matrix with one row per prediction, in order, with the
numbers 1, 2, ... of the frames; without predictions this is an empty list, with a single prediction a
plain list. -/
theorem C57_video_partial (s : Accum K) (path : Str) (n : Nat) (hn : 1 ≤ n)
    (frames : List (List (BoxPred K))) (hf : frames.length ≤ n) :
    ∃ s', accUpdates (s.create path (.int n)).1 frames = some s' ∧ s'.paths = s.paths ++ [path] ∧
      s'.matrixes = s.matrixes ++ if frames.length = n then [matOf (videoRows 1 frames)] else [] := by
  refine ⟨_, accUpdates_spec frames s.matrixes (s.paths ++ [path]) 1 (n - 1) [], rfl, ?_⟩
  simp only [List.nil_append]
  congr 1
  by_cases h : frames.length = n
  · rw [if_pos h, show frames.length - (n - 1) = 1 by omega, show n - 1 + 1 = frames.length by omega]
    simp
  · rw [if_neg h, show frames.length - (n - 1) = 0 by omega]
    simp

/-- C57: every update beyond the `n`-th stores the matrix once more -/
theorem C57_extra_updates (s : Accum K) (path : Str) (n : Nat) (hn : 1 ≤ n)
    (frames : List (List (BoxPred K))) (hf : n ≤ frames.length) :
    ∃ s', accUpdates (s.create path (.int n)).1 frames = some s' ∧
      s'.matrixes.length = s.matrixes.length + (frames.length - n) + 1 := by
  refine ⟨_, accUpdates_spec frames s.matrixes (s.paths ++ [path]) 1 (n - 1) [], ?_⟩
  simp
  omega

omit [Ring K] in
/-- C57: without `create_accumulator` or without predictions (the default) `update` raises and changes
nothing -/
theorem C57_update_raises [Ring K] (s : Accum K) (preds : Option (List (Pred K)))
    (h : preds = none ∨ s.video = none) : s.update preds = (s, true) := by
  unfold Accum.update
  rcases h with rfl | h
  · rfl
  · cases preds with
    | none => rfl
    | some ps => simp only [h]

/-! ### C72: comparison with the ground truth -/

/-- one video: its path and the predictions of its frames -/
structure Vid (K : Type) where
  path : Str
  frames : List (List (BoxPred K))

/-- the usual use: for each video `create_accumulator` with its length and one update per frame -/
def accRun : Accum K → List (Vid K) → Option (Accum K)
  | s, [] => some s
  | s, v :: vs =>
    match s.create v.path (.int v.frames.length) with
    | (_, true) => none
    | (s, false) => (accUpdates s v.frames).bind fun s => accRun s vs

/-- C57: after any number of videos, each with one update per frame, there is one matrix per video, in order -/
theorem C57_videos_partial (vs : List (Vid K)) (hv : ∀ v ∈ vs, v.frames ≠ []) :
    ∃ s, accRun Accum.init vs = some s ∧ s.paths = vs.map (·.path) ∧
      s.matrixes = vs.map fun v => matOf (videoRows 1 v.frames) := by
  have key : ∀ s0 : Accum K, ∃ s, accRun s0 vs = some s ∧ s.paths = s0.paths ++ vs.map (·.path) ∧
      s.matrixes = s0.matrixes ++ vs.map fun v => matOf (videoRows 1 v.frames) := by
    induction vs with
    | nil => intro s0; exact ⟨s0, rfl, by simp, by simp⟩
    | cons v vs ih =>
      intro s0
      obtain ⟨s1, h1, h2, h3⟩ := C57_video_partial s0 v.path v.frames.length
        (List.length_pos_of_ne_nil (hv v (List.mem_cons_self ..))) v.frames (le_refl _)
      obtain ⟨s2, h4, h5, h6⟩ := ih (fun v h => hv v (List.mem_cons_of_mem _ h)) s1
      refine ⟨s2, ?_, ?_, ?_⟩
      · rw [accRun]
        have : s0.create v.path (.int v.frames.length) = ((s0.create v.path (.int v.frames.length)).1, false) := rfl
        rw [this]
        simp only [h1, Option.bind_some, h4]
      · rw [h5, h2]; simp
      · rw [h6, h3]; simp
  simpa [Accum.init] using key Accum.init

end

theorem dictSet_new {V : Type} (k : Str) (v : V) (d : List (Str × V)) (h : k ∉ d.map (·.1)) :
    dictSet k v d = d ++ [(k, v)] := by
  induction d with
  | nil => rfl
  | cons e d ih =>
    simp only [List.map_cons, List.mem_cons, not_or] at h
    rw [dictSet, if_neg (Ne.symm h.1), ih h.2]
    rfl

theorem dictOf_nodup {V : Type} (items : List (Str × V)) (h : (items.map (·.1)).Nodup) : dictOf items = items := by
  have key : ∀ (items d : List (Str × V)), ((d ++ items).map (·.1)).Nodup →
      items.foldl (fun d i => dictSet i.1 i.2 d) d = d ++ items := by
    intro items
    induction items with
    | nil => intro d _; simp
    | cons i items ih =>
      intro d h
      rw [List.foldl_cons, dictSet_new, ih]
      · simp
      · simpa using h
      · rw [List.map_append, List.map_cons, List.nodup_append] at h
        intro hm
        exact h.2.2 _ hm _ (List.mem_cons_self ..) rfl
  simpa [dictOf] using key items [] (by simpa using h)

theorem lookup_nodup {V : Type} (l : List (Str × V)) (h : (l.map (·.1)).Nodup) (k : Str) (v : V) (hm : (k, v) ∈ l) :
    l.lookup k = some v := by
  induction l with
  | nil => cases hm
  | cons e l ih =>
    obtain ⟨k', v'⟩ := e
    rw [List.map_cons, List.nodup_cons] at h
    rcases List.mem_cons.mp hm with he | hm
    · cases he; simp [List.lookup]
    · have hne : k ≠ k' := by
        rintro rfl
        exact h.1 (List.mem_map.mpr ⟨(k, v), by assumption, rfl⟩)
      rw [List.lookup_cons, beq_false_of_ne hne]
      exact ih h.2 hm

/-- what is compared for a prediction: the box moved by one pixel, as in the ground truth -/
def frameOf [Ring K] (frame : Nat) (b : BoxPred K) : MotFrame K :=
  ⟨frame, some b.id, b.x0 - 1, b.y0 - 1, b.x1 - b.x0, b.y1 - b.y0, -1, -1, -1⟩

/-- C72: For videos with different names, none with exactly one prediction in all, each with one update per
frame, `compute_metrics` compares each video, in order, under its name, with its own ground truth, and no
prediction is missing: there is one row per prediction with the number of its frame, its id and its box. -/
theorem C72_compare_partial [Ring K] [LinearOrder K] {G : Type} (gt : Str → G) (vs : List (Vid K))
    (hv : ∀ v ∈ vs, v.frames ≠ [] ∧ v.frames.flatten.length ≠ 1)
    (hn : (vs.map fun v => pathTail v.path).Nodup) :
    ∃ s, accRun Accum.init vs = some s ∧ evalMotchallenge gt s.matrixes s.paths =
      some (vs.map fun v => (pathTail v.path, gt v.path,
        (v.frames.zipIdx 1).flatMap fun f => f.1.map (frameOf f.2))) := by
  obtain ⟨s, h1, h2, h3⟩ := C57_videos_partial vs fun v h => (hv v h).1
  refine ⟨s, h1, ?_⟩
  have hlen : ∀ (fs : List (List (BoxPred K))) (k : Nat), (videoRows k fs).length = fs.flatten.length := by
    intro fs
    induction fs with
    | nil => intro k; rfl
    | cons f fs ih =>
      intro k
      have := ih (k + 1)
      simp only [videoRows] at this ⊢
      simp [List.zipIdx_cons, this]
  have hload : ∀ v ∈ vs, loadMotchallenge (matOf (videoRows 1 v.frames)) (-1) =
      some ((v.frames.zipIdx 1).flatMap fun f => f.1.map (frameOf f.2)) := by
    intro v hm
    have hne := (hv v hm).2
    rw [← hlen v.frames 1] at hne
    have hrows : ∀ rs : List (MotRow K), rs.length ≠ 1 → (∀ r ∈ rs, r.confidence = -1) →
        loadMotchallenge (matOf rs) (-1) = some (rs.map fun r =>
          ⟨r.frame, r.id, r.x - 1, r.y - 1, r.width, r.height, r.confidence, r.classId, r.visibility⟩) := by
      intro rs h1 hc
      have hf : ∀ rs : List (MotRow K), (∀ r ∈ rs, r.confidence = -1) →
          ((rs.map fun r => (⟨r.frame, r.id, r.x - 1, r.y - 1, r.width, r.height, r.confidence, r.classId,
            r.visibility⟩ : MotFrame K)).filter fun r => decide (-1 ≤ r.confidence)) =
          rs.map fun r => ⟨r.frame, r.id, r.x - 1, r.y - 1, r.width, r.height, r.confidence, r.classId,
            r.visibility⟩ := by
        intro rs hc
        rw [List.filter_eq_self]
        intro r hr
        obtain ⟨q, hq, rfl⟩ := List.mem_map.mp hr
        simp [hc q hq]
      match rs with
      | [] => simp [matOf, loadMotchallenge]
      | [r] => simp at h1
      | r :: r' :: rs =>
        show some _ = some _
        congr 1
        exact hf _ hc
    rw [hrows _ hne]
    · congr 1
      simp only [videoRows, List.map_flatMap, List.map_map]
      rfl
    · intro r hr
      obtain ⟨f, -, hr⟩ := List.mem_flatMap.mp hr
      obtain ⟨b, -, rfl⟩ := List.mem_map.mp hr
      rfl
  unfold evalMotchallenge
  rw [h2, h3]
  have hm : ((vs.map (·.path)).zipIdx).mapM (fun p : Str × Nat =>
      ((vs.map fun v => matOf (videoRows 1 v.frames))[p.2]?).bind fun m =>
        (loadMotchallenge m (-1)).map fun l => (pathTail p.1, l)) =
      some (vs.map fun v => (pathTail v.path, (v.frames.zipIdx 1).flatMap fun f => f.1.map (frameOf f.2))) := by
    have key : ∀ (pre vs' : List (Vid K)), vs = pre ++ vs' →
        ((vs'.map (·.path)).zipIdx pre.length).mapM (fun p : Str × Nat =>
          ((vs.map fun v => matOf (videoRows 1 v.frames))[p.2]?).bind fun m =>
            (loadMotchallenge m (-1)).map fun l => (pathTail p.1, l)) =
          some (vs'.map fun v =>
            (pathTail v.path, (v.frames.zipIdx 1).flatMap fun f => f.1.map (frameOf f.2))) := by
      intro pre vs'
      induction vs' generalizing pre with
      | nil => intro _; rfl
      | cons v vs' ih =>
        intro he
        have h := ih (pre ++ [v]) (by simp [he])
        rw [List.length_append, List.length_singleton] at h
        rw [List.map_cons, List.zipIdx_cons, List.mapM_cons, h]
        have hg : (vs.map fun v => matOf (videoRows 1 v.frames))[pre.length]? =
            some (matOf (videoRows 1 v.frames)) := by
          rw [he]; simp
        simp only [hg, Option.bind_some, hload v (by rw [he]; simp), Option.map_some]
        rfl
    simpa using key [] vs rfl
  rw [hm]
  simp only
  congr 1
  have hn1 : ((vs.map (·.path)).map fun p => (pathTail p, gt p)).map (·.1) = vs.map fun v => pathTail v.path := by
    simp
  have hn2 : ((vs.map fun v => (pathTail v.path, (v.frames.zipIdx 1).flatMap fun f => f.1.map (frameOf (K := K) f.2))).map
      (·.1)) = vs.map fun v => pathTail v.path := by
    simp
  rw [dictOf_nodup _ (by rw [hn1]; exact hn), dictOf_nodup _ (by rw [hn2]; exact hn)]
  unfold compareDataframes
  rw [List.filterMap_map]
  have : ∀ v ∈ vs, ((vs.map (·.path)).map fun p => (pathTail p, gt p)).lookup (pathTail v.path) = some (gt v.path) := by
    intro v hm
    refine lookup_nodup _ (by rw [hn1]; exact hn) _ _ ?_
    exact List.mem_map.mpr ⟨v.path, List.mem_map.mpr ⟨v, hm, rfl⟩, rfl⟩
  have hfm : ∀ vs' : List (Vid K), (∀ v ∈ vs', v ∈ vs) →
      vs'.filterMap ((fun k : Str × List (MotFrame K) =>
        (((vs.map (·.path)).map fun p => (pathTail p, gt p)).lookup k.1).map fun g => (k.1, g, k.2)) ∘
          fun v => (pathTail v.path, (v.frames.zipIdx 1).flatMap fun f => f.1.map (frameOf f.2))) =
      vs'.map fun v => (pathTail v.path, gt v.path,
        (v.frames.zipIdx 1).flatMap fun f => f.1.map (frameOf f.2)) := by
    intro vs'
    induction vs' with
    | nil => intro _; rfl
    | cons v vs' ih =>
      intro hs
      rw [List.filterMap_cons, List.map_cons, ih fun v h => hs v (List.mem_cons_of_mem _ h)]
      simp only [Function.comp, this v (hs v (List.mem_cons_self ..)), Option.map_some]
  exact hfm vs fun v h => h

/-! ### Examples and witnesses -/

/-- two videos -/
def toyVids : List (Vid ℤ) :=
  [⟨"/data/A".toList, toyFrames⟩, ⟨"/data/B".toList, [[], [⟨3, 0, 0, 2, 2⟩], [⟨3, 1, 1, 3, 3⟩]]⟩]

/-- C57, C72: hypotheses -/
example : (∀ v ∈ toyVids, v.frames ≠ [] ∧ v.frames.flatten.length ≠ 1) ∧
    (toyVids.map fun v => pathTail v.path).Nodup := by
  refine ⟨?_, by decide +kernel⟩
  simp [toyVids, toyFrames]

example : ((accRun Accum.init toyVids).bind fun s => evalMotchallenge (fun p => p) s.matrixes s.paths) =
    some [("A".toList, "/data/A".toList, [⟨1, some 1, 9, 19, 20, 20, -1, -1, -1⟩,
        ⟨2, some 1, 10, 20, 20, 20, -1, -1, -1⟩, ⟨2, some 2, -6, -1, 10, 8, -1, -1, -1⟩]),
      ("B".toList, "/data/B".toList, [⟨2, some 3, -1, -1, 2, 2, -1, -1, -1⟩, ⟨3, some 3, 0, 0, 2, 2, -1, -1, -1⟩])] := by
  decide +kernel

/-- C72: exactly one prediction in a video makes the evaluation of all videos raise -/
theorem C72_single_prediction :
    ((accRun Accum.init (toyVids ++ [⟨"/data/C".toList, [[⟨3, 0, 0, 2, 2⟩], []]⟩])).bind fun s =>
      evalMotchallenge (fun p => p) s.matrixes s.paths) = none := by
  decide +kernel

/-- C72: of two videos with the same name in different folders only the second one is compared -/
theorem C72_same_name :
    ((accRun Accum.init [⟨"/data/train/A".toList, toyFrames⟩, ⟨"/data/test/A".toList, [[]]⟩]).bind fun s =>
      evalMotchallenge (fun p => p) s.matrixes s.paths) =
      some [("A".toList, "/data/test/A".toList, [])] := by
  decide +kernel

/-- C57, C72: one update too many for the first video of two frames, and the predictions of the first video
are compared with the ground truth of the second -/
theorem C72_shifted :
    ((accUpdates ((Accum.init (K := ℤ)).create "A".toList (.int 2)).1 (toyFrames ++ [[]])).bind fun s =>
      (accUpdates (s.create "B".toList (.int 1)).1 [[]]).bind fun s =>
        evalMotchallenge (fun p => p) s.matrixes s.paths) =
      some [("A".toList, "A".toList, (toyFrames.zipIdx 1).flatMap fun f => f.1.map (frameOf f.2)),
        ("B".toList, "B".toList, (toyFrames.zipIdx 1).flatMap fun f => f.1.map (frameOf f.2))] := by
  decide +kernel

/-- C57_extra_updates: three updates for a video of two frames -/
example : 1 ≤ 2 ∧ 2 ≤ (toyFrames ++ [[]]).length := by decide

end Norfair.Props
