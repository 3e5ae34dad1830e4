import Verif.Spec.XyahLoop
import Verif.Props.MotVideo
import Verif.Props.DemoTrack
import Verif.Props.Xyah

/-! C138, C139: the evaluation with boxes given by center, ratio of sides and height, and the videos of the evaluations with
objects of other classes. -/

set_option linter.unusedSectionVars false

namespace Norfair.Props

open Norfair Norfair.Spec

variable {K L D F X H S Img : Type}

/-! ### The video -/

section
variable [Field K] [LinearOrder K] [FloorRing K]

/-- the video of some frames with their detections and objects -/
def filmAll {P : Type} (dr : EvalDraw K L H) (label : L) (extra : X) (load : Str → Option (EvalFrame Img)) :
    Option (FrameSeq Pic) → List (List (ParsedDet K) × List P) → Option (Option (FrameSeq Pic))
  | video, [] => some video
  | video, x :: xs => (otherWrite dr label extra load x.1 x.2 video).bind fun video => filmAll dr label extra load video xs

theorem filmAll_none {P : Type} (dr : EvalDraw K L H) (label : L) (extra : X) (load : Str → Option (EvalFrame Img))
    (xs : List (List (ParsedDet K) × List P)) : filmAll dr label extra load none xs = some none := by
  induction xs with
  | nil => rfl
  | cons x xs ih => rw [filmAll, otherWrite, Option.bind_some, ih]

/-- the frame of a detection of the parser -/
theorem otherPicture_nil {P : Type} (dr : EvalDraw K L H) (label : L) (extra : X) (f : EvalFrame Img)
    (dets : List (ParsedDet K)) (hd : ∀ d ∈ dets, ∃ r, d = detOf r) :
    otherPicture dr label extra f dets ([] : List P) = some (detsPicture dr f dets) := by
  let t : ℤ := truncInt (((f.shape.foldl max 0 : Nat) : K) / 500)
  have h1 : drawBoxes dr.env f.shape {} (some (dets.map fun d => Drawable.ofDet dr.lab (detOfParsed label extra d))) =
      some (frameAll t (dets.map fun d => (d.points.flatten, dr.env.palette.default)) .base) := by
    refine drawBoxesLoop_plain dr.env {} rfl t none _ _ 0 .base ?_
    rw [List.forall₂_map_left_iff, List.forall₂_map_right_iff, List.forall₂_same]
    intro d hm
    obtain ⟨r, rfl⟩ := hd d hm
    exact ⟨⟨_, _, _, _, rfl, rfl⟩, rfl, rfl⟩
  have h2 : drawOthers dr.env f.shape ([] : List P) = some .base := rfl
  simp only [otherPicture, h1, h2, Option.bind_some, Option.map_some]
  rw [frameAll_render]
  rfl

theorem otherPicture_cons {P : Type} (dr : EvalDraw K L H) (label : L) (extra : X) (f : EvalFrame Img)
    (dets : List (ParsedDet K)) {objs : List P} (h : objs ≠ []) : otherPicture dr label extra f dets objs = none := by
  cases objs with
  | nil => exact absurd rfl h
  | cons o os =>
    unfold otherPicture
    cases drawBoxes dr.env f.shape {} (some (dets.map fun d => Drawable.ofDet dr.lab (detOfParsed label extra d))) <;> rfl

/-- the video raises exactly if there is an object in some frame; otherwise it has a picture for each frame -/
theorem filmAll_eq {P : Type} (dr : EvalDraw K L H) (label : L) (extra : X) (load : Str → Option (EvalFrame Img))
    {path dir ext : Str} {n : Nat} (xs : List (List (ParsedDet K) × List P)) :
    ∀ (k : Nat) (imgs : List (EvalFrame Img)) (seq : FrameSeq Pic), SeqAt seq path dir ext n k → seq.hasVideo = true →
    k + xs.length = n → imgs.length = xs.length →
    (∀ j f, imgs[j]? = some f → load (pathJoin (pathJoin path dir) (zfill6 (natStr (k + j + 1)) ++ ext)) = some f) →
    (∀ x ∈ xs, ∀ d ∈ x.1, ∃ r, d = detOf r) →
    ((∃ x ∈ xs, x.2 ≠ []) → filmAll dr label extra load (some seq) xs = none) ∧
    ((∀ x ∈ xs, x.2 = []) → ∃ seq', filmAll dr label extra load (some seq) xs = some (some seq') ∧
      seq'.released = seq.released + (if 0 < xs.length then 1 else 0) ∧
      seq'.written = seq.written ++ List.zipWith (fun f x => detsPicture dr f x.1) imgs xs) := by
  induction xs with
  | nil =>
    intro k imgs seq hq hv hk hl hload hd
    refine ⟨by simp, fun _ => ⟨seq, rfl, rfl, by simp⟩⟩
  | cons x xs ih =>
    intro k imgs seq hq hv hk hl hload hd
    simp only [List.length_cons] at hk
    match imgs, hl with
    | f :: imgs, hl =>
    have hl : imgs.length = xs.length := by simpa using hl
    have hf := hload 0 f rfl
    rw [Nat.add_zero] at hf
    have hw : otherWrite dr label extra load x.1 x.2 (some seq) =
        (otherPicture dr label extra f x.1 x.2).map fun pic => some { seq with
          frameNumber := k + 2
          written := seq.written ++ [pic]
          released := if k + 2 > n then seq.released + 1 else seq.released } := by
      unfold otherWrite
      dsimp only
      rw [hq.item (show k < n by omega)]
      simp only [hf]
      cases otherPicture dr label extra f x.1 x.2 with
      | none => rfl
      | some pic => simp only [hq.write hv, Option.map_some]
    rw [filmAll, hw]
    by_cases hx : x.2 = []
    · rw [hx, otherPicture_nil dr label extra f x.1 (hd x (List.mem_cons_self ..)), Option.map_some, Option.bind_some]
      obtain ⟨h1, h2⟩ := ih (k + 1) imgs { seq with
          frameNumber := k + 2
          written := seq.written ++ [detsPicture dr f x.1]
          released := if k + 2 > n then seq.released + 1 else seq.released } (hq.step _ _) hv (by omega) hl
        (fun j g hj => by rw [show k + 1 + j + 1 = k + (j + 1) + 1 by omega]; exact hload (j + 1) g hj)
        (fun y hy => hd y (List.mem_cons_of_mem _ hy))
      refine ⟨fun h => h1 ?_, fun h => ?_⟩
      · obtain ⟨y, hy, hne⟩ := h
        rcases List.mem_cons.mp hy with rfl | hy
        · exact absurd hx hne
        · exact ⟨y, hy, hne⟩
      · obtain ⟨seq', e1, e2, e3⟩ := h2 fun y hy => h y (List.mem_cons_of_mem _ hy)
        refine ⟨seq', e1, ?_, ?_⟩
        · rw [e2]
          simp only [List.length_cons, Nat.succ_pos, if_true]
          split <;> split <;> omega
        · rw [e3]
          simp
    · rw [otherPicture_cons dr label extra f x.1 hx]
      exact ⟨fun _ => rfl, fun h => absurd (h x (List.mem_cons_self ..)) hx⟩

end

/-- what ByteTrack returned is shown -/
theorem byteOutputs_shown (tr : ByteOps K S) (cs : List (List (List K))) : ∀ s objs,
    ∀ os ∈ byteOutputs tr s (cs.filter fun c => !c.isEmpty), os ∈ byteShown tr s objs cs := by
  induction cs with
  | nil => intro s objs os h; exact h
  | cons c cs ih =>
    intro s objs os h
    unfold byteShown
    cases c with
    | nil => exact List.mem_cons_of_mem _ (ih s objs os h)
    | cons r c =>
      rw [if_neg (by simp)]
      rcases List.mem_cons.mp h with h | h
      · exact h ▸ List.mem_cons_self ..
      · exact List.mem_cons_of_mem _ (ih _ _ os h)

/-- what is shown was there before, or ByteTrack returned it -/
theorem byteShown_outputs (tr : ByteOps K S) (cs : List (List (List K))) : ∀ s objs,
    ∀ os ∈ byteShown tr s objs cs, os = objs ∨ os ∈ byteOutputs tr s (cs.filter fun c => !c.isEmpty) := by
  induction cs with
  | nil => intro s objs os h; exact .inr h
  | cons c cs ih =>
    intro s objs os h
    unfold byteShown at h
    cases c with
    | nil =>
      rcases List.mem_cons.mp h with h | h
      · exact .inl h
      · exact ih s objs os h
    | cons r c =>
      rw [if_neg (by simp)] at h
      right
      rcases List.mem_cons.mp h with h | h
      · exact h ▸ List.mem_cons_self ..
      · rcases ih _ _ os h with h | h
        · exact h ▸ List.mem_cons_self ..
        · exact List.mem_cons_of_mem _ h

/-! ### Boxes by center, ratio and height -/

section
variable [Field K] [LinearOrder K] [IsStrictOrderedRing K] [FloorRing K] [LinearOrder D] [OrderTop D] [Zero D] [DecidableEq L]

theorem xyahTrack_eq {fo : FilterOps K F} {o : Obj K L D F} {i : Nat} (hi : o.id = some i)
    (hs : HasShape (2, 2) (o.estimate fo)) : xyahTrack fo o = some (xyahBox fo o).pred := by
  obtain ⟨x0, y0, x1, y1, e1, e2⟩ := Pts.rows_box hs
  simp only [xyahTrack, e2, xyahBox, e1, hi, BoxPred.pred, Xyah.toBox, Option.getD_some,
    List.getD_cons_zero, List.getD_cons_succ, Option.some.injEq, Pred.mk.injEq]
  refine ⟨rfl, ?_⟩
  rw [mul_div_assoc]

/-- the loop is the tracker, what is written, and the video -/
theorem xyahFrames_eq {cfg : Cfg K L D F X} (fmt : K → Str) (dr : EvalDraw K L H) (label : L) (extra : X)
    (load : Str → Option (EvalFrame Img)) (ds : List (List (ParsedDet K) × List Ref)) :
    ∀ (s : MotState K L D F X) (video : Option (FrameSeq Pic)),
    (trackCalls cfg s.world (ds.map fun d => (some d.2, 1)) = none → xyahFrames cfg fmt dr label extra load s video ds = none) ∧
    ∀ w' acts, trackCalls cfg s.world (ds.map fun d => (some d.2, 1)) = some (w', acts) →
    (∀ act ∈ acts, ∀ o ∈ act, xyahTrack cfg.flt o = some (xyahBox cfg.flt o).pred) →
    xyahFrames cfg fmt dr label extra load s video ds =
      (predRun fmt s.file (acts.map fun act => ⟨(act.map (xyahBox cfg.flt)).map BoxPred.pred, none⟩)).bind fun file =>
        (accUpdates s.acc (acts.map fun act => act.map (xyahBox cfg.flt))).bind fun acc =>
          (filmAll dr label extra load video ((ds.map (·.1)).zip acts)).map fun video => (⟨w', file, acc⟩, video) := by
  induction ds with
  | nil =>
    intro s video
    refine ⟨(fun h => by cases h), fun w' acts h _ => ?_⟩
    cases h
    rfl
  | cons d ds ih =>
    intro s video
    obtain ⟨dets, refs⟩ := d
    simp only [List.map_cons, trackCalls, xyahFrames]
    rcases hu : update cfg s.world (some refs) 1 none with ⟨w, er | act⟩
    · exact ⟨fun _ => rfl, fun w' acts h => by cases h⟩
    simp only
    refine ⟨fun h => ?_, fun w' acts h hb => ?_⟩
    · replace h := Option.map_eq_none_iff.mp h
      cases act.mapM (xyahTrack cfg.flt) with
      | none => rfl
      | some tracks =>
        simp only
        cases otherWrite dr label extra load dets tracks video with
        | none => rfl
        | some video' =>
          simp only
          rcases s.file.update fmt tracks none with ⟨file, _ | _⟩
          · simp only
            rcases s.acc.update (some tracks) with ⟨acc, _ | _⟩
            · exact (ih ⟨w, file, acc⟩ video').1 h
            · rfl
          · rfl
    · obtain ⟨⟨w2, acts2⟩, h2, e⟩ := Option.map_eq_some_iff.mp h
      cases e
      have hp : act.mapM (xyahTrack cfg.flt) = some ((act.map (xyahBox cfg.flt)).map BoxPred.pred) := by
        rw [List.map_map]
        exact mapM_some_map fun o ho => hb act (List.mem_cons_self ..) o ho
      have hfilm : otherWrite dr label extra load dets ((act.map (xyahBox cfg.flt)).map BoxPred.pred) video =
          otherWrite dr label extra load dets act video := by
        cases act <;> rfl
      rw [hp]
      simp only [hfilm, List.map_cons, predRun, accUpdates, List.zip_cons_cons, filmAll]
      have key := fun file acc video' => (ih ⟨w, file, acc⟩ video').2 w2 acts2 h2 fun a ha => hb a (List.mem_cons_of_mem _ ha)
      rcases hf : s.file.update fmt ((act.map (xyahBox cfg.flt)).map BoxPred.pred) none with ⟨file, _ | _⟩
      · rcases hacc : s.acc.update (some ((act.map (xyahBox cfg.flt)).map BoxPred.pred)) with ⟨acc, _ | _⟩
        · cases otherWrite dr label extra load dets act video with
          | none =>
            simp only [Option.bind_none, Option.map_none]
            cases predRun fmt file (acts2.map fun act => ⟨(act.map (xyahBox cfg.flt)).map BoxPred.pred, none⟩) with
            | none => rfl
            | some _ => 
              simp only [Option.bind_some]
              cases accUpdates acc (acts2.map fun act => act.map (xyahBox cfg.flt)) <;> rfl
          | some video' => exact key file acc video'
        · simp only
          cases otherWrite dr label extra load dets act video <;>
            cases predRun fmt file (acts2.map fun act => ⟨(act.map (xyahBox cfg.flt)).map BoxPred.pred, none⟩) <;> rfl
      · simp only
        cases otherWrite dr label extra load dets act video <;> rfl

/-- what the parser's detections become -/
theorem xyahParsed_row (label : L) (extra : X) (r : List K) :
    detOfParsed label extra (xyahParsed (detOf r)) = xyahRow label extra r := by
  have e1 : (r.getD 2 0 + (r.getD 2 0 + r.getD 4 0)) / 2 = r.getD 2 0 + r.getD 4 0 / 2 := by ring
  have e2 : (r.getD 3 0 + (r.getD 3 0 + r.getD 5 0)) / 2 = r.getD 3 0 + r.getD 5 0 / 2 := by ring
  simp only [detOf, xyahParsed, Box.toXyah, detOfParsed, xyahRow, List.flatten_cons, List.flatten_nil, List.cons_append,
    List.nil_append, add_sub_cancel_left, e1, e2]

theorem xyahCalls_dets (label : L) (extra : X) (sortRows : List (List K) → List (List K)) (rows : List (List K)) (n : Nat) :
    newDets (xyahCalls label extra sortRows rows n) =
      (seqDets sortRows rows n).map fun l => l.map fun d => detOfParsed label extra (xyahParsed d) := by
  simp only [newDets, xyahCalls, seqDets, List.map_map]
  refine List.map_congr_left fun k _ => ?_
  simp only [Function.comp, Option.getD_some, List.map_map]
  exact List.map_congr_left fun r _ => (xyahParsed_row label extra r).symm

/-- the sequence: tracker, files, video -/
theorem xyahSeq_eq {cfg : Cfg K L D F X} {Ok : F → Prop} (hL : FilterLaws cfg.flt Ok) (fmt : K → Str) (dr : EvalDraw K L H)
    (sortRows : List (List K) → List (List K)) (hs : SortsByFrame sortRows) (label : L) (extra : X) (g : Nat)
    (acc : Accum K) {v : FilmSeq K Img} {n : Nat} (hv : TallOk v n) :
    (demoTrack cfg label extra g (xyahCalls label extra sortRows v.rows n) = none →
      ∀ make, xyahSeq cfg fmt dr sortRows label extra make g acc v = none) ∧
    ∀ w' acts, demoTrack cfg label extra g (xyahCalls label extra sortRows v.rows n) = some (w', acts) →
      acts.length = n ∧ (∀ act ∈ acts, ∀ o ∈ act, HasShape (2, 2) (o.estimate cfg.flt) ∧ ∃ i, o.id = some i) ∧
      ∃ file acc', file.closed = true ∧
        file.text = runText fmt 1 (acts.map fun act => ⟨(act.map (xyahBox cfg.flt)).map BoxPred.pred, none⟩) ∧
        acc'.paths = acc.paths ++ [v.path] ∧
        acc'.matrixes = acc.matrixes ++ [matOf (videoRows 1 (acts.map fun act => act.map (xyahBox cfg.flt)))] ∧
        ∀ make, xyahSeq cfg fmt dr sortRows label extra make g acc v =
          (filmAll dr label extra v.load (otherVideo make v) ((seqDets sortRows v.rows n).zip acts)).map
            fun video => ((w'.gcount, file, acc'), video) := by
  obtain ⟨m, hm, hw⟩ := hv.width
  have hp := C56_read_partial sortRows hs v.rows hv.rows m hm hw n
  have hcr : acc.create v.path (.int n) = ((acc.create v.path (.int n)).1, false) := rfl
  let calls := xyahCalls label extra sortRows v.rows n
  let dets := seqDets sortRows v.rows n
  let w0 : World K L D F X := ⟨detHeap label extra (newDets calls).flatten, g, 0, 0, []⟩
  let ds := dets.zip (refsFrom 0 (newDets calls))
  have hdl : dets.length = n := by simp [dets, seqDets]
  have hrl : (refsFrom 0 (newDets calls)).length = n := by
    rw [refsFrom_length]; simp [newDets, calls, xyahCalls]
  have e : ∀ make, xyahSeq cfg fmt dr sortRows label extra make g acc v =
      (xyahFrames cfg fmt dr label extra v.load ⟨w0, PredFile.init (.int n), (acc.create v.path (.int n)).1⟩
        (otherVideo make v) ds).map fun r => ((r.1.world.gcount, r.1.file, r.1.acc), r.2) := by
    intro make
    unfold xyahSeq
    rw [hv.length, hp]
    simp only
    rw [hcr]
    simp only [w0, ds, calls, xyahCalls_dets, dets]
    rfl
  have hcalls : ds.map (fun d => ((some d.2, 1) : Option (List Ref) × Int)) =
      (calls.zip (refsFrom 0 (newDets calls))).map fun c => (c.1.1.map fun _ => c.2, c.1.2) := by
    have h1 : ds.map Prod.snd = refsFrom 0 (newDets calls) := List.map_snd_zip (by omega)
    have h2 : (calls.zip (refsFrom 0 (newDets calls))).map Prod.snd = refsFrom 0 (newDets calls) :=
      List.map_snd_zip (by rw [hrl]; simp [calls, xyahCalls])
    have h3 : (calls.zip (refsFrom 0 (newDets calls))).map (fun c => ((c.1.1.map fun _ => c.2, c.1.2) : Option (List Ref) × Int)) =
        (calls.zip (refsFrom 0 (newDets calls))).map fun c => (some c.2, 1) := by
      refine List.map_congr_left fun c hc => ?_
      obtain ⟨k, -, hk⟩ := List.mem_map.mp (List.of_mem_zip hc).1
      rw [← hk]
      rfl
    have h4 : ∀ {A : Type} (l : List (A × List Ref)), l.map (fun d => ((some d.2, 1) : Option (List Ref) × Int)) =
        (l.map Prod.snd).map fun r => (some r, 1) := fun l => by rw [List.map_map]; rfl
    rw [h3, h4, h4, h1, h2]
  have f := fun make => xyahFrames_eq (cfg := cfg) fmt dr label extra v.load ds
    ⟨w0, PredFile.init (.int n), (acc.create v.path (.int n)).1⟩ (otherVideo make v)
  rw [hcalls] at f
  refine ⟨fun h make => by rw [e, (f make).1 h]; rfl, fun w' acts h => ?_⟩
  obtain ⟨hlen, hobj⟩ := (demoTrack_shape hL label extra g (s := (2, 2)) (calls := calls) (fun l hl d hd => by
    obtain ⟨c, hc, rfl⟩ := List.mem_map.mp hl
    obtain ⟨k, -, rfl⟩ := List.mem_map.mp hc
    obtain ⟨r, -, rfl⟩ := List.mem_map.mp hd
    exact ⟨⟨rfl, rfl, rfl⟩, ⟨rfl, rfl, rfl⟩, fun s hs => by cases hs; rfl⟩)).1 w' acts h
  have hlen' : acts.length = n := by rw [hlen]; simp [calls, xyahCalls]
  refine ⟨hlen', fun act ha o ho => ⟨(hobj act ha o ho).1, (hobj act ha o ho).2.2⟩, ?_⟩
  have hpos := hv.pos
  obtain ⟨file, g1, g2, g3, -⟩ := C55_file fmt n
    (acts.map fun act => ⟨(act.map (xyahBox cfg.flt)).map BoxPred.pred, none⟩)
    (by
      intro q hq p hp
      obtain ⟨bs, -, rfl⟩ := List.mem_map.mp hq
      obtain ⟨b, -, rfl⟩ := List.mem_map.mp hp
      exact ⟨b.id, b.x0, b.y0, b.x1, b.y1, [], [], [], rfl, rfl⟩)
    (by rw [List.drop_eq_nil_of_le (by simp [hlen', hpos])]; simp)
  obtain ⟨acc', a1, a2, a3⟩ := C57_video_partial acc v.path n hpos (acts.map fun act => act.map (xyahBox cfg.flt))
    (by simp [hlen'])
  refine ⟨file, acc', g3.mpr (by simp [hlen', hpos]), g2, a2, by rw [a3, if_pos (by simp [hlen'])], fun make => ?_⟩
  rw [e, (f make).2 w' acts h fun act ha o ho => by
    obtain ⟨h1, -, i, hi⟩ := hobj act ha o ho
    exact xyahTrack_eq hi h1]
  rw [g1, Option.bind_some]
  simp only
  rw [a1, Option.bind_some, Option.map_map]
  have hfst : ds.map (·.1) = dets := List.map_fst_zip (by omega)
  rw [hfst]
  rfl

theorem seqDets_rows {sortRows : List (List K) → List (List K)} {rows : List (List K)} {n : Nat} :
    ∀ dets ∈ seqDets sortRows rows n, ∀ d ∈ dets, ∃ r, d = detOf r := by
  intro dets hd d hm
  obtain ⟨k, -, rfl⟩ := List.mem_map.mp hd
  obtain ⟨r, -, rfl⟩ := List.mem_map.mp hm
  exact ⟨r, rfl⟩

/-- the video of a sequence -/
theorem filmAll_seq {P : Type} (dr : EvalDraw K L H) (label : L) (extra : X) {v : FilmSeq K Img} {n : Nat}
    {frames : List (EvalFrame Img)} (hf : FilmOk v n frames) (sortRows : List (List K) → List (List K))
    {objs : List (List P)} (ho : objs.length = n) :
    ((∃ os ∈ objs, os ≠ []) →
      filmAll dr label extra v.load (otherVideo true v) ((seqDets sortRows v.rows n).zip objs) = none) ∧
    ((∀ os ∈ objs, os = []) → ∃ seq,
      filmAll dr label extra v.load (otherVideo true v) ((seqDets sortRows v.rows n).zip objs) = some (some seq) ∧
      seq.released = 1 ∧ seq.written.length = n ∧ ∀ (k : Nat) (f : EvalFrame Img) (dets : List (ParsedDet K)),
        frames[k]? = some f → (seqDets sortRows v.rows n)[k]? = some dets →
        seq.written[k]? = some (detsPicture dr f dets)) := by
  obtain ⟨dir, ext, hdir, hext, hfiles⟩ := hf.files
  have hdl : (seqDets sortRows v.rows n).length = n := by simp [seqDets]
  have hzl : ((seqDets sortRows v.rows n).zip objs).length = n := by simp [hdl, ho]
  obtain ⟨h1, h2⟩ := filmAll_eq dr label extra v.load ((seqDets sortRows v.rows n).zip objs) 0 frames
    ⟨v.length, v.path, v.imDir, v.imExt, true, 1, [], 0⟩ (path := v.path) (dir := dir) (ext := ext) (n := n)
    ⟨hf.length, rfl, hdir, hext, rfl⟩ rfl (by omega) (by rw [hzl, hf.count])
    (fun j f hj => by rw [Nat.zero_add]; exact hfiles j f hj)
    (fun x hx => seqDets_rows _ (List.of_mem_zip hx).1)
  refine ⟨fun ⟨os, hos, hne⟩ => h1 ?_, fun h => ?_⟩
  · obtain ⟨k, hk, rfl⟩ := List.getElem_of_mem hos
    refine ⟨((seqDets sortRows v.rows n).zip objs)[k]'(by omega), List.getElem_mem _, ?_⟩
    rw [List.getElem_zip]
    exact hne
  · obtain ⟨seq, e1, e2, e3⟩ := h2 fun x hx => h _ (List.of_mem_zip hx).2
    refine ⟨seq, e1, ?_, ?_, fun k f dets hk hd => ?_⟩
    · rw [e2, if_pos (by rw [hzl]; exact hf.pos)]
    · rw [e3]; simp [hdl, ho, hf.count]
    · have hlt : k < objs.length := by
        rw [ho, ← hdl]
        exact (List.getElem?_eq_some_iff.mp hd).1
      rw [e3, List.nil_append, List.getElem?_zipWith, hk, List.getElem?_zip_eq_some (z := (dets, objs[k])).mpr ⟨hd, List.getElem?_eq_getElem hlt⟩]

/-- **C138** What the evaluation with boxes by center, ratio and height does, exactly (with `--save-pred`, without
`--make-video`): each detection of the file is given to the tracker as center, width / height and height, frame by frame; it raises
exactly if the tracker raises. Otherwise the text file is closed and has for each frame the boxes of the objects that the
tracker returned for it, with center, width (ratio times height) and height of the estimate, and the accumulator gets the
same boxes. -/
theorem C138_sequence {cfg : Cfg K L D F X} {Ok : F → Prop} (hL : FilterLaws cfg.flt Ok) (fmt : K → Str) (dr : EvalDraw K L H)
    (sortRows : List (List K) → List (List K)) (hs : SortsByFrame sortRows) (label : L) (extra : X) (g : Nat)
    (acc : Accum K) {v : FilmSeq K Img} {n : Nat} (hv : TallOk v n) :
    (demoTrack cfg label extra g (xyahCalls label extra sortRows v.rows n) = none →
      xyahSeq cfg fmt dr sortRows label extra false g acc v = none) ∧
    ∀ w' acts, demoTrack cfg label extra g (xyahCalls label extra sortRows v.rows n) = some (w', acts) →
      let boxes := acts.map fun act => act.map (xyahBox cfg.flt)
      ∃ file acc', xyahSeq cfg fmt dr sortRows label extra false g acc v = some ((w'.gcount, file, acc'), none) ∧
        file.closed = true ∧ file.text = runText fmt 1 (boxes.map fun bs => ⟨bs.map BoxPred.pred, none⟩) ∧
        acc'.paths = acc.paths ++ [v.path] ∧ acc'.matrixes = acc.matrixes ++ [matOf (videoRows 1 boxes)] := by
  obtain ⟨h1, h2⟩ := xyahSeq_eq hL fmt dr sortRows hs label extra g acc hv
  refine ⟨fun h => h1 h false, fun w' acts h => ?_⟩
  obtain ⟨-, -, file, acc', e1, e2, e3, e4, e5⟩ := h2 w' acts h
  refine ⟨file, acc', ?_, e1, by rw [e2, List.map_map]; rfl, e3, e4⟩
  rw [e5]
  show (filmAll dr label extra v.load none _).map _ = _
  rw [filmAll_none]
  rfl

/-- **C138** There is one list of objects for each frame. Each object has an id, and its estimate is center, ratio `a` and height
`h`; the box that is written has this center, the width `a * h` and the height `h`, and is the one from which a detection
with these numbers is made. -/
theorem C138_objects {cfg : Cfg K L D F X} {Ok : F → Prop} (hL : FilterLaws cfg.flt Ok) (dr : EvalDraw K L H)
    (sortRows : List (List K) → List (List K)) (hs : SortsByFrame sortRows) (label : L) (extra : X) (g : Nat)
    {v : FilmSeq K Img} {n : Nat} (hv : TallOk v n) {w' : World K L D F X} {acts : List (List (Obj K L D F))}
    (h : demoTrack cfg label extra g (xyahCalls label extra sortRows v.rows n) = some (w', acts)) :
    acts.length = n ∧ ∀ act ∈ acts, ∀ o ∈ act, ∃ (i : Nat) (cx cy a t : K), o.id = some i ∧
      o.estimate cfg.flt = ⟨2, 2, [cx, cy, a, t]⟩ ∧ (xyahBox cfg.flt o).id = i ∧
      ((xyahBox cfg.flt o).x0 + (xyahBox cfg.flt o).x1) / 2 = cx ∧ ((xyahBox cfg.flt o).y0 + (xyahBox cfg.flt o).y1) / 2 = cy ∧
      (xyahBox cfg.flt o).x1 - (xyahBox cfg.flt o).x0 = a * t ∧ (xyahBox cfg.flt o).y1 - (xyahBox cfg.flt o).y0 = t ∧
      ∀ (r : List K), r.getD 5 0 ≠ 0 → (xyahRow label extra r).points = o.estimate cfg.flt →
        (xyahBox cfg.flt o).x0 = r.getD 2 0 ∧ (xyahBox cfg.flt o).y0 = r.getD 3 0 ∧
        (xyahBox cfg.flt o).x1 = r.getD 2 0 + r.getD 4 0 ∧ (xyahBox cfg.flt o).y1 = r.getD 3 0 + r.getD 5 0 := by
  obtain ⟨h1, h2, -⟩ := (xyahSeq_eq hL (fun _ => []) dr sortRows hs label extra g Accum.init hv).2 w' acts h
  refine ⟨h1, fun act ha o ho => ?_⟩
  obtain ⟨⟨s1, s2, s3⟩, i, hi⟩ := h2 act ha o ho
  have hb : ∀ cx cy a t, o.estimate cfg.flt = ⟨2, 2, [cx, cy, a, t]⟩ → xyahBox cfg.flt o =
      ⟨(i : Nat), cx - a * t / 2, cy - t / 2, cx + a * t / 2, cy + t / 2⟩ := fun cx cy a t e => by
    simp only [xyahBox, e, hi, Option.getD_some, List.getD_cons_zero, List.getD_cons_succ]
  generalize hp : o.estimate cfg.flt = p at s1 s2 s3 hb
  obtain ⟨rows, dim, data⟩ := p
  simp only at s1 s2 s3
  subst s1 s2
  match data, s3 with
  | [cx, cy, a, t], _ =>
  rw [hb cx cy a t rfl]
  refine ⟨i, cx, cy, a, t, hi, rfl, rfl, by ring, by ring, by ring, by ring, fun r hr e => ?_⟩
  simp only [xyahRow, Pts.mk.injEq, List.cons.injEq, true_and, and_true] at e
  obtain ⟨rfl, rfl, rfl, rfl⟩ := e
  rw [div_mul_cancel₀ _ hr]
  refine ⟨by ring, by ring, by ring, by ring⟩

/-- **C139** (the negation, exactly where) With `--make-video` the evaluation with boxes by center raises as soon as the tracker
returns an object, in any sequence whose pictures are there. -/
theorem C139_center_raises {cfg : Cfg K L D F X} {Ok : F → Prop} (hL : FilterLaws cfg.flt Ok) (fmt : K → Str)
    (dr : EvalDraw K L H) (sortRows : List (List K) → List (List K)) (hs : SortsByFrame sortRows) (label : L) (extra : X)
    (g : Nat) (acc : Accum K) {v : FilmSeq K Img} {n : Nat} {frames : List (EvalFrame Img)} (hv : TallOk v n)
    (hf : FilmOk v n frames) {w' : World K L D F X} {acts : List (List (Obj K L D F))}
    (h : demoTrack cfg label extra g (xyahCalls label extra sortRows v.rows n) = some (w', acts))
    (hobj : ∃ act ∈ acts, act ≠ []) : xyahSeq cfg fmt dr sortRows label extra true g acc v = none := by
  obtain ⟨h1, -, file, acc', -, -, -, -, e5⟩ := (xyahSeq_eq hL fmt dr sortRows hs label extra g acc hv).2 w' acts h
  rw [e5, (filmAll_seq dr label extra hf sortRows h1).1 hobj]
  rfl

/-- **C139** (the part that holds) If the tracker never returns an object, the results are those without `--make-video`, and the
video has one picture for each frame: the frame with frames around the boxes of its detections as they are in the file, in the
default color. The video is released once. -/
theorem C139_center_partial {cfg : Cfg K L D F X} {Ok : F → Prop} (hL : FilterLaws cfg.flt Ok) (fmt : K → Str)
    (dr : EvalDraw K L H) (sortRows : List (List K) → List (List K)) (hs : SortsByFrame sortRows) (label : L) (extra : X)
    (g : Nat) (acc : Accum K) {v : FilmSeq K Img} {n : Nat} {frames : List (EvalFrame Img)} (hv : TallOk v n)
    (hf : FilmOk v n frames) {w' : World K L D F X} {acts : List (List (Obj K L D F))}
    (h : demoTrack cfg label extra g (xyahCalls label extra sortRows v.rows n) = some (w', acts))
    (hobj : ∀ act ∈ acts, act = []) : ∃ r seq, xyahSeq cfg fmt dr sortRows label extra false g acc v = some (r, none) ∧
      xyahSeq cfg fmt dr sortRows label extra true g acc v = some (r, some seq) ∧ seq.released = 1 ∧ seq.written.length = n ∧
      ∀ (k : Nat) (f : EvalFrame Img) (dets : List (ParsedDet K)), frames[k]? = some f →
        (seqDets sortRows v.rows n)[k]? = some dets → seq.written[k]? = some (detsPicture dr f dets) := by
  obtain ⟨h1, -, file, acc', -, -, -, -, e5⟩ := (xyahSeq_eq hL fmt dr sortRows hs label extra g acc hv).2 w' acts h
  obtain ⟨seq, f1, f2, f3, f4⟩ := (filmAll_seq dr label extra hf sortRows h1).2 hobj
  refine ⟨_, seq, ?_, by rw [e5, f1]; rfl, f2, f3, f4⟩
  rw [e5]
  show (filmAll dr label extra v.load none _).map _ = _
  rw [filmAll_none]
  rfl

/-! ### ByteTrack -/

theorem byteVideoFrames_eq (tr : ByteOps K S) (fmt : K → Str) (dr : EvalDraw K L H) (label : L) (extra : X)
    (load : Str → Option (EvalFrame Img)) (ds : List (List (ParsedDet K))) :
    ∀ (s : ByteState K S) (video : Option (FrameSeq Pic)) (rows : List (List (List K))),
    ds.mapM (fun l => l.mapM byteDet) = some rows → byteVideoFrames tr fmt dr label extra load s video ds =
      (byteFrames tr fmt s ds).bind fun s' =>
        (filmAll dr label extra load video (ds.zip (byteShown tr s.tracker s.objs rows))).map fun video => (s', video) := by
  induction ds with
  | nil => intro s video rows h; cases h; rfl
  | cons dets ds ih =>
    intro s video rows h
    rw [List.mapM_cons] at h
    obtain ⟨r, hr, h⟩ := Option.bind_eq_some_iff.mp h
    obtain ⟨rs, hrs, h⟩ := Option.bind_eq_some_iff.mp h
    cases h
    unfold byteVideoFrames byteFrames
    rw [hr]
    simp only
    have e : byteShown tr s.tracker s.objs (r :: rs) =
        (if r.length > 0 then tr.update s.tracker r else (s.tracker, s.objs)).2 ::
          byteShown tr (if r.length > 0 then tr.update s.tracker r else (s.tracker, s.objs)).1
            (if r.length > 0 then tr.update s.tracker r else (s.tracker, s.objs)).2 rs := by
      rw [byteShown]
      cases r with
      | nil => simp
      | cons _ _ => simp
    rw [e]
    generalize (if r.length > 0 then tr.update s.tracker r else (s.tracker, s.objs)) = t
    have hw : otherWrite dr label extra load dets (t.2.map ByteObj.static) video =
        otherWrite dr label extra load dets t.2 video := by
      cases t.2 <;> rfl
    rw [hw]
    simp only [List.zip_cons_cons, filmAll]
    cases otherWrite dr label extra load dets t.2 video with
    | none =>
      simp only [Option.bind_none, Option.map_none]
      rcases s.file.update fmt (t.2.map ByteObj.static) none with ⟨file, _ | _⟩
      · simp only
        rcases s.acc.update (some (t.2.map ByteObj.static)) with ⟨acc, _ | _⟩
        · simp only
          cases byteFrames tr fmt ⟨t.1, t.2, file, acc⟩ ds <;> rfl
        · rfl
      · rfl
    | some video' =>
      simp only [Option.bind_some]
      rcases s.file.update fmt (t.2.map ByteObj.static) none with ⟨file, _ | _⟩
      · simp only
        rcases s.acc.update (some (t.2.map ByteObj.static)) with ⟨acc, _ | _⟩
        · exact ih ⟨t.1, t.2, file, acc⟩ video' rs hrs
        · rfl
      · rfl

theorem byteVideoSeq_eq (tr : ByteOps K S) (fmt : K → Str) (dr : EvalDraw K L H) (sortRows : List (List K) → List (List K))
    (hs : SortsByFrame sortRows) (label : L) (extra : X) (make : Bool) (acc : Accum K) {v : FilmSeq K Img} {n : Nat}
    (hl : v.length = .int n) (hv : ByteOk v.rows n) : byteVideoSeq tr fmt dr sortRows label extra make acc v =
      (byteSeq tr fmt sortRows acc v.path (.int n) v.rows).bind fun r =>
        (filmAll dr label extra v.load (otherVideo make v)
          ((seqDets sortRows v.rows n).zip (byteShown tr tr.fresh [] (byteRows sortRows v.rows n)))).map fun video => (r, video) := by
  obtain ⟨m, hm, hw⟩ := hv.width
  have hp := C56_read_partial sortRows hs v.rows hv.two m hm hw n
  have hcr : acc.create v.path (.int n) = ((acc.create v.path (.int n)).1, false) := rfl
  unfold byteVideoSeq byteSeq
  rw [hl, hp]
  simp only
  rw [hcr]
  simp only
  have he := byteVideoFrames_eq tr fmt dr label extra v.load (seqDets sortRows v.rows n)
    ⟨tr.fresh, [], PredFile.init (.int n), (acc.create v.path (.int n)).1⟩ (otherVideo make v) _ (byteDet_rows sortRows v.rows n)
  have hd : seqDets sortRows v.rows n = (List.range' 1 n).map fun k : Nat =>
    ((sortRows v.rows).filter fun r => r.head? == some (k : K)).map detOf := rfl
  rw [← hd, he]
  cases byteFrames tr fmt ⟨tr.fresh, [], PredFile.init (.int n), (acc.create v.path (.int n)).1⟩
    (seqDets sortRows v.rows n) with
  | none => rfl
  | some s =>
    simp only [Option.bind_some, Option.map_some, Option.map_map]
    rfl

/-- **C139** Without `--make-video` the model with the video is the one of C125. -/
theorem C139_byte_same (tr : ByteOps K S) (fmt : K → Str) (dr : EvalDraw K L H) (sortRows : List (List K) → List (List K))
    (hs : SortsByFrame sortRows) (label : L) (extra : X) (acc : Accum K) {v : FilmSeq K Img} {n : Nat}
    (hl : v.length = .int n) (hv : ByteOk v.rows n) : byteVideoSeq tr fmt dr sortRows label extra false acc v =
      (byteSeq tr fmt sortRows acc v.path (.int n) v.rows).map fun r => (r, none) := by
  rw [byteVideoSeq_eq tr fmt dr sortRows hs label extra false acc hl hv]
  show ((byteSeq tr fmt sortRows acc v.path (.int n) v.rows).bind fun r => (filmAll dr label extra v.load none _).map _) = _
  rw [filmAll_none]
  cases byteSeq tr fmt sortRows acc v.path (.int n) v.rows <;> rfl

/-- **C139** (the negation, exactly where) With `--make-video` the evaluation of ByteTrack raises if it returns an object in some
call (it is called in the frames with detections), in any sequence whose pictures are there. -/
theorem C139_byte_raises (tr : ByteOps K S) (fmt : K → Str) (dr : EvalDraw K L H) (sortRows : List (List K) → List (List K))
    (hs : SortsByFrame sortRows) (label : L) (extra : X) (acc : Accum K) {v : FilmSeq K Img} {n : Nat}
    {frames : List (EvalFrame Img)} (hf : FilmOk v n frames)
    (hobj : ∃ os ∈ byteOutputs tr tr.fresh ((byteRows sortRows v.rows n).filter fun c => !c.isEmpty), os ≠ []) :
    byteVideoSeq tr fmt dr sortRows label extra true acc v = none := by
  have hv : ByteOk v.rows n := ⟨hf.rows, hf.width, hf.pos⟩
  have hlen : (byteShown tr tr.fresh [] (byteRows sortRows v.rows n)).length = n := by
    rw [byteShown_length]; simp [byteRows]
  rw [byteVideoSeq_eq tr fmt dr sortRows hs label extra true acc hf.length hv,
    (filmAll_seq dr label extra hf sortRows hlen).1 ?_]
  · cases byteSeq tr fmt sortRows acc v.path (.int n) v.rows <;> rfl
  · obtain ⟨os, hos, hne⟩ := hobj
    exact ⟨os, byteOutputs_shown tr _ _ _ os hos, hne⟩

/-- **C139** (the part that holds) If ByteTrack never returns an object, the results are those without `--make-video`, and the
video has one picture for each frame: the frame with frames around the boxes of its detections, in the default color. It is
released once. -/
theorem C139_byte_partial (tr : ByteOps K S) (fmt : K → Str) (dr : EvalDraw K L H) (sortRows : List (List K) → List (List K))
    (hs : SortsByFrame sortRows) (label : L) (extra : X) (acc : Accum K) {v : FilmSeq K Img} {n : Nat}
    {frames : List (EvalFrame Img)} (hf : FilmOk v n frames)
    (hobj : ∀ os ∈ byteOutputs tr tr.fresh ((byteRows sortRows v.rows n).filter fun c => !c.isEmpty), os = []) :
    ∃ r seq, byteSeq tr fmt sortRows acc v.path (.int n) v.rows = some r ∧
      byteVideoSeq tr fmt dr sortRows label extra true acc v = some (r, some seq) ∧ seq.released = 1 ∧
      seq.written.length = n ∧ ∀ (k : Nat) (f : EvalFrame Img) (dets : List (ParsedDet K)), frames[k]? = some f →
        (seqDets sortRows v.rows n)[k]? = some dets → seq.written[k]? = some (detsPicture dr f dets) := by
  have hv : ByteOk v.rows n := ⟨hf.rows, hf.width, hf.pos⟩
  have hlen : (byteShown tr tr.fresh [] (byteRows sortRows v.rows n)).length = n := by
    rw [byteShown_length]; simp [byteRows]
  obtain ⟨file, acc', e, -⟩ := byteSeq_eq tr fmt sortRows hs acc v.path hv
  obtain ⟨seq, f1, f2, f3, f4⟩ := (filmAll_seq dr label extra hf sortRows hlen).2 fun os hos =>
    (byteShown_outputs tr _ _ _ os hos).elim id (hobj os)
  refine ⟨_, seq, e, ?_, f2, f3, f4⟩
  rw [byteVideoSeq_eq tr fmt dr sortRows hs label extra true acc hf.length hv, e, f1]
  rfl

end

/-! ### Examples -/

/-- `iou_xyah` as a distance function -/
def xyahDist (d : Det ℚ Nat Unit) (o : ObjView ℚ Nat (WithTop ℚ) (NoFilter ℚ) Unit) : Option (Option (WithTop ℚ)) :=
  match d.points.data, (o.obj.estimate noFilterOps).data with
  | [a, b, c, t], [a', b', c', t'] => some ((iouXyah ⟨a, b, c, t⟩ ⟨a', b', c', t'⟩).map fun x => (x : WithTop ℚ))
  | _, _ => none

/-- a tracker with `iou_xyah`; objects are initialized after `delay` frames -/
def xyahCfg (delay : Int) : Cfg ℚ Nat (WithTop ℚ) (NoFilter ℚ) Unit := { properCfg with dist := .scalar xyahDist, initDelay := delay }

theorem filmSeq_tall : TallOk filmSeq 4 :=
  ⟨filmSeq_ok.rows, filmSeq_ok.width, filmSeq_ok.length, filmSeq_ok.pos, by decide +kernel⟩

def tinyBytes (shown : Bool) : ByteOps ℚ Nat where
  fresh := 0
  update s c := (s + 1, if shown then c.map fun r => ⟨r.getD 0 0, r.getD 1 0, r.getD 2 0, r.getD 3 0, s⟩ else [])

set_option synthInstance.maxSize 2000 in
/-- C138: the hypotheses hold, and these are the lines: frame, id, corner and size; the second box is not detected in the last
two frames -/
example : SortsByFrame (K := ℚ) toySort ∧ TallOk filmSeq 4 ∧
    (demoTrack (xyahCfg 0) 0 () 0 (xyahCalls 0 () toySort filmSeq.rows 4)).isSome ∧
    (xyahSeq (xyahCfg 0) (fun _ => []) filmDraw toySort 0 () false 0 Accum.init filmSeq).map
      (fun r => (r.1.1, r.1.2.2.matrixes.map matRows)) =
    some (2, [[(1, some 1, [1, 0, 2, 2]), (1, some 2, [5, 1, 2, 3]), (2, some 1, [1, 0, 2, 2]), (2, some 2, [5, 1, 2, 3]),
      (3, some 1, [2, 0, 2, 2]), (3, some 2, [5, 1, 2, 3]), (4, some 1, [3, 0, 2, 2]), (4, some 2, [5, 1, 2, 3])]]) :=
  ⟨toySort_sorts, filmSeq_tall, by decide +kernel, by decide +kernel⟩

/-- **C139** is false: two objects are tracked in a sequence of four frames, and the evaluation raises with `--make-video`, and
does not without; both for boxes by center and for ByteTrack. -/
theorem C139_false_raises :
    (xyahSeq (xyahCfg 0) (fun _ => []) filmDraw toySort 0 () true 0 Accum.init filmSeq).isNone = true ∧
    (xyahSeq (xyahCfg 0) (fun _ => []) filmDraw toySort 0 () false 0 Accum.init filmSeq).isSome = true ∧
    (byteVideoSeq (tinyBytes true) (fun _ => []) filmDraw toySort 0 () true Accum.init filmSeq).isNone = true ∧
    (byteVideoSeq (tinyBytes true) (fun _ => []) filmDraw toySort 0 () false Accum.init filmSeq).isSome = true := by
  decide +kernel

/-- C139: the hypotheses of the theorems hold, with and without objects -/
example : TallOk filmSeq 4 ∧ FilmOk filmSeq 4 evalFrames ∧
    ((demoTrack (xyahCfg 0) 0 () 0 (xyahCalls 0 () toySort filmSeq.rows 4)).map fun r => r.2.map List.length) =
      some [2, 2, 2, 2] ∧
    ((demoTrack (xyahCfg 4) 0 () 0 (xyahCalls 0 () toySort filmSeq.rows 4)).map fun r => r.2.map List.length) =
      some [0, 0, 0, 0] ∧
    (byteOutputs (tinyBytes true) 0 ((byteRows toySort filmSeq.rows 4).filter fun c => !c.isEmpty)).map List.length =
      [2, 2, 1, 1] ∧
    (byteOutputs (tinyBytes false) 0 ((byteRows toySort filmSeq.rows 4).filter fun c => !c.isEmpty)).map List.length =
      [0, 0, 0, 0] :=
  ⟨filmSeq_tall, filmSeq_ok, by decide +kernel, by decide +kernel, by decide +kernel, by decide +kernel⟩

set_option synthInstance.maxSize 2000 in
/-- C139_center_partial: the corners of the boxes in the four pictures, in the default color -/
example : ((xyahSeq (xyahCfg 4) (fun _ => []) filmDraw toySort 0 () true 0 Accum.init filmSeq).bind fun r => r.2.map fun q =>
      (q.released, q.written.map fun p => [p (1, 0) 0, p (2, 0) 0, p (5, 1) 0, p (3, 0) 0, p (0, 0) 0])) =
    some (1, [[7, 0, 7, 0, 0], [7, 0, 7, 0, 0], [0, 7, 0, 0, 0], [0, 0, 0, 7, 0]]) := by decide +kernel

end Norfair.Props
