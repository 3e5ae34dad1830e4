import Verif.Spec.OtherScript
import Verif.Model.OtherScript
import Verif.Props.EvalOut
import Verif.Props.XyahLoop
import Verif.Props.ByteLoop

/-!
C144: the scripts `motmetrics4norfair_xyah.py` and `motmetrics4bytetrack.py` over all sequences, with the metrics and the disk.
-/

namespace Norfair.Props

open Norfair Norfair.Spec

set_option linter.unusedSectionVars false

variable {K L D F X H G Tab Img S V : Type}

section
variable [Ring K] [LinearOrder K]

/-- `run` evaluates one sequence as `shown` tells -/
structure RunShows (fmt : K → Str) (run : Nat → Accum K → V → Option (Nat × PredFile × Accum K)) (pathOf : V → Str)
    (shown : Nat → V → Option (Nat × List (List (BoxPred K)))) (v : V) : Prop where
  raises : ∀ g acc, shown g v = none → run g acc v = none
  runs : ∀ g acc g' bs, shown g v = some (g', bs) → bs ≠ [] ∧ ∃ file acc', run g acc v = some (g', file, acc') ∧
    file.text = runText fmt 1 (bs.map fun b => ⟨b.map BoxPred.pred, none⟩) ∧ acc'.paths = acc.paths ++ [pathOf v] ∧
    acc'.matrixes = acc.matrixes ++ [matOf (videoRows 1 bs)]

theorem otherAll_eq {fmt : K → Str} {run : Nat → Accum K → V → Option (Nat × PredFile × Accum K)} {pathOf : V → Str}
    {shown : Nat → V → Option (Nat × List (List (BoxPred K)))} (savePred : Bool) (out : List Str) (vs : List V) :
    ∀ (g : Nat) (acc : Accum K), (∀ v ∈ vs, RunShows fmt run pathOf shown v) →
    (seqsShown shown g vs = none → ∀ d, otherAll run pathOf savePred out g acc d vs = none) ∧
    ∀ bss, seqsShown shown g vs = some bss → bss.length = vs.length ∧ (∀ bs ∈ bss, bs ≠ []) ∧
      ∃ acc', acc'.paths = acc.paths ++ vs.map pathOf ∧ acc'.matrixes = acc.matrixes ++ bss.map (fun bs => matOf (videoRows 1 bs)) ∧
        ∀ d, otherAll run pathOf savePred out g acc d vs = (if savePred then writePreds out d (List.zipWith (fun v bs =>
          (pathOf v, runText fmt 1 (bs.map fun b => ⟨b.map BoxPred.pred, none⟩))) vs bss) else some d).map fun d => (acc', d) := by
  induction vs with
  | nil =>
    intro g acc _
    refine ⟨(fun h => by cases h), fun bss h => ?_⟩
    cases h
    exact ⟨rfl, by simp, acc, by simp, by simp, fun d => by cases savePred <;> rfl⟩
  | cons v vs ih =>
    intro g acc hv
    have hr := hv v List.mem_cons_self
    have hvs := fun u hu => hv u (List.mem_cons_of_mem _ hu)
    unfold seqsShown otherAll
    cases ht : shown g v with
    | none =>
      rw [hr.raises g acc ht]
      exact ⟨fun _ _ => rfl, fun bss h => by cases h⟩
    | some r =>
      obtain ⟨g', bs⟩ := r
      obtain ⟨hne, file, acc1, e1, e2, e3, e4⟩ := hr.runs g acc g' bs ht
      rw [e1]
      simp only [Option.bind_some]
      constructor
      · intro h d
        rw [Option.map_eq_none_iff] at h
        cases (if savePred then writePred out d (pathOf v) file.text else some d) with
        | none => rfl
        | some d1 => exact (ih g' acc1 hvs).1 h d1
      · intro bss h
        obtain ⟨bss', h', rfl⟩ := Option.map_eq_some_iff.mp h
        obtain ⟨l1, l2, acc', p1, p2, key⟩ := (ih g' acc1 hvs).2 bss' h'
        refine ⟨by simp [l1], ?_, acc', by rw [p1, e3]; simp, by rw [p2, e4]; simp, fun d => ?_⟩
        · intro b hb
          rcases List.mem_cons.mp hb with rfl | hb
          · exact hne
          · exact l2 b hb
        cases savePred with
        | false => exact key d
        | true =>
          simp only [if_true, List.zipWith_cons_cons, writePreds, ← e2] at key ⊢
          cases writePred out d (pathOf v) file.text with
          | none => rfl
          | some d1 => exact key d1

/-- the whole script -/
theorem otherScript_ok {fmt : K → Str} {run : Nat → Accum K → V → Option (Nat × PredFile × Accum K)} {pathOf : V → Str}
    {shown : Nat → V → Option (Nat × List (List (BoxPred K)))} (mm : MotMetrics K G Tab) (gt : Str → G)
    (savePred saveMetrics : Bool) (out : List Str) (d : Disk) (vs : List V) (hv : ∀ v ∈ vs, RunShows fmt run pathOf shown v)
    (hn : (vs.map fun v => pathTail (pathOf v)).Nodup) (hc : Clear d (out ++ ["predictions".toList]))
    (hp : ∀ v ∈ vs, d (predFileOf out (pathOf v)) ≠ some .dir) (hf : d (out ++ ["metrics.txt".toList]) ≠ some .dir) :
    (seqsShown shown 0 vs = none → otherScript run pathOf mm gt savePred saveMetrics out d vs = none) ∧
    ∀ bss, seqsShown shown 0 vs = some bss → (∀ bs ∈ bss, bs.flatten.length ≠ 1) →
      ∀ text tab, mm.summary (List.zipWith (fun v bs => (pathTail (pathOf v), gt (pathOf v),
          (bs.zipIdx 1).flatMap fun f => f.1.map (frameOf f.2))) vs bss) mm.default true = some (text, tab) →
      ∃ d', otherScript run pathOf mm gt savePred saveMetrics out d vs = some (text, d') ∧
        (saveMetrics = true → d' (out ++ ["metrics.txt".toList]) = some (.file text)) ∧
        (savePred = true → ∀ r ∈ List.zip vs bss, d' (predFileOf out (pathOf r.1)) = some (.file
          (runText fmt 1 (r.2.map fun b => ⟨b.map BoxPred.pred, none⟩)))) ∧
        ∀ q, (saveMetrics = true → q ≠ out ++ ["metrics.txt".toList]) →
          (savePred = true → ∀ v ∈ vs, q ≠ predFileOf out (pathOf v)) →
          d' q = d q ∨ (d q = none ∧ d' q = some .dir ∧
            (savePred = true ∧ q <+: out ++ ["predictions".toList] ∨ saveMetrics = true ∧ q <+: out)) := by
  obtain ⟨h1, h2⟩ := otherAll_eq savePred out vs 0 Accum.init hv
  unfold otherScript
  constructor
  · intro h; rw [h1 h d]
  · intro bss h hne text tab hm
    obtain ⟨hlen, hnil, acc, p1, p2, e⟩ := h2 bss h
    rw [e d]
    have hfstg : ∀ {B C : Type} (f : V → C) (vs : List V) (bss : List B), bss.length = vs.length →
        List.zipWith (fun v _ => f v) vs bss = vs.map f := by
      intro B C f vs
      induction vs with
      | nil => intro bss _; rfl
      | cons v vs ih =>
        intro bss hl
        cases bss with
        | nil => simp at hl
        | cons b bs => rw [List.zipWith_cons_cons, List.map_cons, ih bs (by simpa using hl)]
    have hsnd : ∀ {B C : Type} (f : B → C) (vs : List V) (bss : List B), bss.length = vs.length →
        List.zipWith (fun _ b => f b) vs bss = bss.map f := by
      intro B C f vs
      induction vs with
      | nil => intro bss hl; cases bss with
        | nil => rfl
        | cons => simp at hl
      | cons v vs ih =>
        intro bss hl
        cases bss with
        | nil => simp at hl
        | cons b bs => rw [List.zipWith_cons_cons, List.map_cons, ih bs (by simpa using hl)]
    have hev : evalMotchallenge gt acc.matrixes acc.paths = some (List.zipWith (fun v bs => (pathTail (pathOf v), gt (pathOf v),
          (bs.zipIdx 1).flatMap fun f => f.1.map (frameOf f.2))) vs bss) := by
      have hvid : ∀ q ∈ List.zipWith (fun v bs => (⟨pathOf v, bs⟩ : Vid K)) vs bss, q.frames ∈ bss := by
        intro q hq
        rw [← List.map_uncurry_zip_eq_zipWith] at hq
        obtain ⟨⟨p, bs⟩, hm, rfl⟩ := List.mem_map.mp hq
        exact (List.of_mem_zip hm).2
      obtain ⟨s, c1, c2⟩ := C72_compare_partial gt (List.zipWith (fun v bs => (⟨pathOf v, bs⟩ : Vid K)) vs bss)
        (fun q hq => ⟨hnil _ (hvid q hq), hne _ (hvid q hq)⟩)
        (by rw [List.map_zipWith]; simpa [hfstg (fun v => pathTail (pathOf v)) vs bss hlen] using hn)
      obtain ⟨s', c3, c4, c5⟩ := C57_videos_partial (List.zipWith (fun v bs => (⟨pathOf v, bs⟩ : Vid K)) vs bss)
        (fun q hq => hnil _ (hvid q hq))
      rw [c1] at c3
      cases c3
      have em : acc.matrixes = s.matrixes := by
        rw [p2, c5, List.map_zipWith, hsnd (fun bs => matOf (videoRows 1 bs)) vs bss hlen]; rfl
      have ep : acc.paths = s.paths := by
        rw [p1, c4, List.map_zipWith, hfstg pathOf vs bss hlen]; rfl
      rw [em, ep, c2, List.map_zipWith]
    -- the files of the predictions
    have hw : ∃ d1, (if savePred then writePreds out d (List.zipWith (fun v bs =>
          (pathOf v, runText fmt 1 (bs.map fun b => ⟨b.map BoxPred.pred, none⟩))) vs bss) else some d) = some d1 ∧
        (savePred = true → ∀ r ∈ List.zip vs bss, d1 (predFileOf out (pathOf r.1)) = some (.file
          (runText fmt 1 (r.2.map fun b => ⟨b.map BoxPred.pred, none⟩)))) ∧
        ∀ q, (savePred = true → ∀ v ∈ vs, q ≠ predFileOf out (pathOf v)) →
          d1 q = d q ∨ (d q = none ∧ d1 q = some .dir ∧ savePred = true ∧ q <+: out ++ ["predictions".toList]) := by
      cases savePred with
      | false => exact ⟨d, rfl, by simp, fun q _ => .inl rfl⟩
      | true =>
        rw [if_pos rfl]
        have hfst : (List.zipWith (fun v bs => (pathOf v, runText fmt 1 (bs.map fun b => ⟨b.map BoxPred.pred, none⟩))) vs
            bss).map (fun f => f.1) = vs.map pathOf := by
          rw [List.map_zipWith]; exact hfstg pathOf vs bss hlen
        have hmem : ∀ f ∈ List.zipWith (fun v bs => (pathOf v, runText fmt 1 (bs.map fun b => ⟨b.map BoxPred.pred, none⟩))) vs
            bss, ∃ v ∈ vs, f.1 = pathOf v := by
          intro f hf
          have : f.1 ∈ vs.map pathOf := hfst ▸ List.mem_map.mpr ⟨f, hf, rfl⟩
          obtain ⟨p, hp, e⟩ := List.mem_map.mp this
          exact ⟨p, hp, e.symm⟩
        obtain ⟨d1, w1, w2, w3⟩ := writePreds_ok out _ d hc (fun f hf => by
            obtain ⟨p, hp', e⟩ := hmem f hf
            rw [e]; exact hp p hp') (by
            have := congrArg (List.map pathTail) hfst
            rw [List.map_map] at this
            rw [show (fun f : Str × Str => pathTail f.1) = pathTail ∘ fun f => f.1 from rfl, this, List.map_map]
            exact hn)
        refine ⟨d1, w1, fun _ r hr => ?_, fun q hq => ?_⟩
        · refine w2 (pathOf r.1, _) ?_
          rw [← List.map_uncurry_zip_eq_zipWith]
          exact List.mem_map.mpr ⟨r, hr, rfl⟩
        · rcases w3 q (fun f hf => by
              obtain ⟨p, hp', e⟩ := hmem f hf
              rw [e]; exact hq rfl p hp') with w | ⟨a, b, c⟩
          · exact .inl w
          · exact .inr ⟨a, b, rfl, c⟩
    obtain ⟨d1, w1, w2, w3⟩ := hw
    rw [w1]
    simp only [Option.map_some]
    have hcomp : (AccReport.mk acc none).compute mm gt none true = (⟨acc, some (text, tab)⟩, false) := by
      simp only [AccReport.compute, hev, Option.getD_none, hm]
    rw [hcomp]
    simp only [AccReport.print, Option.map_some]
    cases saveMetrics with
    | false =>
      refine ⟨d1, rfl, by simp, w2, fun q _ hq => ?_⟩
      rcases w3 q hq with w | ⟨a, b, c⟩
      · exact .inl w
      · exact .inr ⟨a, b, .inl c⟩
    | true =>
      have hlenm : ∀ path, out ++ ["metrics.txt".toList] ≠ predFileOf out path := fun path e => by
        have := congrArg List.length e
        simp [predFileOf] at this
      have hmet : d1 (out ++ ["metrics.txt".toList]) = d (out ++ ["metrics.txt".toList]) := by
        rcases w3 _ (fun _ p _ => hlenm _) with w | ⟨-, -, -, w⟩
        · exact w
        · exfalso
          have h := List.prefix_append_right_inj out |>.mp w
          revert h
          decide +kernel
      have hcl : Clear d1 out := fun q hq t e => by
        rcases w3 q (fun _ p _ e => by
            have := hq.length_le
            simp [e, predFileOf] at this) with w | ⟨-, w, -⟩
        · exact hc q (hq.trans (List.prefix_append ..)) t (w ▸ e)
        · rw [w] at e; cases e
      obtain ⟨d', s1, s2, s3⟩ := C141_save_partial (name := "metrics.txt".toList) (⟨acc, some (text, tab)⟩ : AccReport K Tab)
        rfl hcl (hmet ▸ hf)
      rw [if_pos rfl, s1]
      refine ⟨d', rfl, fun _ => s2, fun hsp r hr => ?_, fun q hq1 hq2 => ?_⟩
      · rcases s3 _ (hlenm (pathOf r.1)).symm with s | ⟨-, -, s⟩
        · rw [s]; exact w2 hsp r hr
        · exfalso
          have := s.length_le
          simp [predFileOf] at this
      · rcases s3 q (hq1 rfl) with s | ⟨a, b, c⟩
        · rw [s]
          rcases w3 q hq2 with w | ⟨a, b, c⟩
          · exact .inl w
          · exact .inr ⟨a, b, .inl c⟩
        · rcases w3 q hq2 with w | ⟨-, w, -⟩
          · exact .inr ⟨w ▸ a, b, .inr ⟨rfl, c⟩⟩
          · rw [w] at a; cases a

/-- with a sequence of exactly one box -/
theorem otherScript_one {fmt : K → Str} {run : Nat → Accum K → V → Option (Nat × PredFile × Accum K)} {pathOf : V → Str}
    {shown : Nat → V → Option (Nat × List (List (BoxPred K)))} (mm : MotMetrics K G Tab) (gt : Str → G)
    (savePred saveMetrics : Bool) (out : List Str) (d : Disk) (vs : List V) (hv : ∀ v ∈ vs, RunShows fmt run pathOf shown v)
    {bss : List (List (List (BoxPred K)))} (h : seqsShown shown 0 vs = some bss) (hone : ∃ bs ∈ bss, bs.flatten.length = 1) :
    otherScript run pathOf mm gt savePred saveMetrics out d vs = none := by
  obtain ⟨hlen, -, acc, p1, p2, e⟩ := (otherAll_eq savePred out vs 0 Accum.init hv).2 bss h
  unfold otherScript
  rw [e d]
  cases (if savePred then writePreds out d (List.zipWith (fun v bs =>
      (pathOf v, runText fmt 1 (bs.map fun b => ⟨b.map BoxPred.pred, none⟩))) vs bss) else some d) with
  | none => rfl
  | some d1 =>
    obtain ⟨bs, hb, h1⟩ := hone
    obtain ⟨r, hr⟩ := matOf_one h1
    have hn : evalMotchallenge gt acc.matrixes acc.paths = none := by
      refine evalMot_one (r := r) gt ?_ ?_
      · rw [p1, p2]; simp [Accum.init, hlen]
      · rw [p2, ← hr]
        exact List.mem_append_right _ (List.mem_map.mpr ⟨bs, hb, rfl⟩)
    simp only [Option.map_some, AccReport.compute, hn]

end

section
variable [Field K] [LinearOrder K] [IsStrictOrderedRing K] [FloorRing K] [LinearOrder D] [OrderTop D] [Zero D] [DecidableEq L]

theorem center_shows {cfg : Cfg K L D F X} {Ok : F → Prop} (hL : FilterLaws cfg.flt Ok) (fmt : K → Str) (dr : EvalDraw K L H)
    (sortRows : List (List K) → List (List K)) (hs : SortsByFrame sortRows) (label : L) (extra : X) {v : FilmSeq K Img}
    (ht : TallOk v (framesIn v)) : RunShows fmt (fun g acc v => (xyahSeq cfg fmt dr sortRows label extra false g acc v).map (·.1))
      FilmSeq.path (centerShown cfg sortRows label extra) v := by
  constructor
  · intro g acc h
    show (xyahSeq cfg fmt dr sortRows label extra false g acc v).map _ = _
    rw [(C138_sequence hL fmt dr sortRows hs label extra g acc ht).1 (by simpa [centerShown] using h)]
    rfl
  · intro g acc g' bs h
    obtain ⟨⟨w', acts⟩, h', e⟩ := Option.map_eq_some_iff.mp h
    cases e
    obtain ⟨file, acc', e1, -, e3, e4, e5⟩ := (C138_sequence hL fmt dr sortRows hs label extra g acc ht).2 w' acts h'
    refine ⟨?_, file, acc', by show (xyahSeq cfg fmt dr sortRows label extra false g acc v).map _ = _; rw [e1]; rfl, e3, e4, e5⟩
    have hl := (C138_objects hL dr sortRows hs label extra g ht h').1
    have := ht.pos
    intro hnil
    have h0 : acts = [] := by simpa using hnil
    subst h0
    simp at hl
    omega

/-- **C144** The script `motmetrics4norfair_xyah.py` raises if the tracker raises in one of the sequences. Otherwise, if no sequence
has exactly one box, it prints the metrics of the comparison of the boxes by center of the objects that the tracker returned, for all
sequences by their names, with all metrics and the overall row. With `--save-metrics` the same text is in `metrics.txt`. With
`--save-pred` there is a file for every sequence, with the lines of these boxes. Nothing else on the disk is changed, except for the
directories of these files. -/
theorem C144_center_partial {cfg : Cfg K L D F X} {Ok : F → Prop} (hL : FilterLaws cfg.flt Ok) (fmt : K → Str) (dr : EvalDraw K L H)
    (sortRows : List (List K) → List (List K)) (hs : SortsByFrame sortRows) (label : L) (extra : X)
    (mm : MotMetrics K G Tab) (gt : Str → G) (savePred saveMetrics : Bool) (out : List Str) (d : Disk)
    (vs : List (FilmSeq K Img)) (hv : ∀ v ∈ vs, TallOk v (framesIn v)) (hn : (vs.map fun v => pathTail v.path).Nodup)
    (hc : Clear d (out ++ ["predictions".toList])) (hp : ∀ v ∈ vs, d (predFileOf out v.path) ≠ some .dir)
    (hf : d (out ++ ["metrics.txt".toList]) ≠ some .dir) :
    (seqsShown (centerShown cfg sortRows label extra) 0 vs = none →
      xyahScript cfg fmt dr sortRows label extra mm gt savePred saveMetrics out d vs = none) ∧
    ∀ bss, seqsShown (centerShown cfg sortRows label extra) 0 vs = some bss → (∀ bs ∈ bss, bs.flatten.length ≠ 1) →
      ∀ text tab, mm.summary (List.zipWith (fun v bs => (pathTail v.path, gt v.path,
          (bs.zipIdx 1).flatMap fun f => f.1.map (frameOf f.2))) vs bss) mm.default true = some (text, tab) →
      ∃ d', xyahScript cfg fmt dr sortRows label extra mm gt savePred saveMetrics out d vs = some (text, d') ∧
        (saveMetrics = true → d' (out ++ ["metrics.txt".toList]) = some (.file text)) ∧
        (savePred = true → ∀ r ∈ List.zip vs bss, d' (predFileOf out r.1.path) = some (.file
          (runText fmt 1 (r.2.map fun b => ⟨b.map BoxPred.pred, none⟩)))) ∧
        ∀ q, (saveMetrics = true → q ≠ out ++ ["metrics.txt".toList]) →
          (savePred = true → ∀ v ∈ vs, q ≠ predFileOf out v.path) →
          d' q = d q ∨ (d q = none ∧ d' q = some .dir ∧
            (savePred = true ∧ q <+: out ++ ["predictions".toList] ∨ saveMetrics = true ∧ q <+: out)) := by
  exact otherScript_ok (pathOf := FilmSeq.path) mm gt savePred saveMetrics out d vs
    (fun v hm => center_shows hL fmt dr sortRows hs label extra (hv v hm)) hn hc hp hf

/-- **C144** (the negation, exactly where) If in one of the sequences exactly one box is shown, the script with boxes by center raises,
whatever is in the other sequences. -/
theorem C144_center_raises {cfg : Cfg K L D F X} {Ok : F → Prop} (hL : FilterLaws cfg.flt Ok) (fmt : K → Str) (dr : EvalDraw K L H)
    (sortRows : List (List K) → List (List K)) (hs : SortsByFrame sortRows) (label : L) (extra : X)
    (mm : MotMetrics K G Tab) (gt : Str → G) (savePred saveMetrics : Bool) (out : List Str) (d : Disk)
    (vs : List (FilmSeq K Img)) (hv : ∀ v ∈ vs, TallOk v (framesIn v)) {bss : List (List (List (BoxPred K)))}
    (h : seqsShown (centerShown cfg sortRows label extra) 0 vs = some bss) (hone : ∃ bs ∈ bss, bs.flatten.length = 1) :
    xyahScript cfg fmt dr sortRows label extra mm gt savePred saveMetrics out d vs = none :=
  otherScript_one mm gt savePred saveMetrics out d vs (fun v hm => center_shows hL fmt dr sortRows hs label extra (hv v hm)) h hone

end

section
variable [Field K] [LinearOrder K]

theorem byte_seqs (sortRows : List (List K) → List (List K)) (vs : List (FilmSeq K Img × ByteOps K S)) : ∀ g : Nat,
    seqsShown (fun g v => some (g, byteBoxes sortRows v)) g vs = some (vs.map (byteBoxes sortRows)) := by
  induction vs with
  | nil => intro g; rfl
  | cons v vs ih => intro g; simp [seqsShown, ih]

theorem byte_shows (fmt : K → Str) (sortRows : List (List K) → List (List K)) (hs : SortsByFrame sortRows)
    {v : FilmSeq K Img × ByteOps K S} (hl : v.1.length = .int (framesIn v.1)) (hv : ByteOk v.1.rows (framesIn v.1)) :
    RunShows fmt (fun g acc v => (byteSeq v.2 fmt sortRows acc v.1.path v.1.length v.1.rows).map fun r => (g, r.1, r.2))
      (fun v : FilmSeq K Img × ByteOps K S => v.1.path) (fun g v => some (g, byteBoxes sortRows v)) v := by
  constructor
  · intro g acc h; cases h
  · intro g acc g' bs h
    cases h
    obtain ⟨file, acc', shown, e1, -, e3, e4, e5, e6, e7⟩ := C125_frames v.2 fmt sortRows hs acc v.1.path hv
    have hb : shown.map (fun os => os.map boxOfByte) = byteBoxes sortRows v := by
      apply List.ext_getElem?
      intro k
      by_cases hk : k < framesIn v.1
      · simp [byteBoxes, e7 k hk, List.getElem?_range hk]
      · rw [List.getElem?_eq_none (by simp [e6]; omega), List.getElem?_eq_none (by simp [byteBoxes]; omega)]
    refine ⟨?_, file, acc', ?_, ?_, e4, hb ▸ e5⟩
    · intro h0
      have := congrArg List.length h0
      have hpos := hv.pos
      simp [byteBoxes] at this
      omega
    · show (byteSeq v.2 fmt sortRows acc v.1.path v.1.length v.1.rows).map _ = _
      rw [hl, e1]; rfl
    · rw [e3, ← hb, List.map_map]; rfl

/-- **C144** The script `motmetrics4bytetrack.py` does not raise in the sequences, and if none has exactly one box, it prints the metrics
of the comparison of the boxes of `C125`, for all sequences by their names, with all metrics and the overall row. With
`--save-metrics` the same text is in `metrics.txt`. With `--save-pred` there is a file for every sequence, with the lines of these
boxes. Nothing else on the disk is changed, except for the directories of these files. -/
theorem C144_byte_partial (fmt : K → Str) (sortRows : List (List K) → List (List K)) (hs : SortsByFrame sortRows)
    (mm : MotMetrics K G Tab) (gt : Str → G) (savePred saveMetrics : Bool) (out : List Str) (d : Disk)
    (vs : List (FilmSeq K Img × ByteOps K S)) (hl : ∀ v ∈ vs, v.1.length = .int (framesIn v.1))
    (hv : ∀ v ∈ vs, ByteOk v.1.rows (framesIn v.1)) (hn : (vs.map fun v => pathTail v.1.path).Nodup)
    (hc : Clear d (out ++ ["predictions".toList])) (hp : ∀ v ∈ vs, d (predFileOf out v.1.path) ≠ some .dir)
    (hf : d (out ++ ["metrics.txt".toList]) ≠ some .dir) (hne : ∀ v ∈ vs, (byteBoxes sortRows v).flatten.length ≠ 1)
    (text : Str) (tab : Tab) (hm : mm.summary (vs.map fun v => (pathTail v.1.path, gt v.1.path,
      ((byteBoxes sortRows v).zipIdx 1).flatMap fun f => f.1.map (frameOf f.2))) mm.default true = some (text, tab)) :
    ∃ d', byteScript fmt sortRows mm gt savePred saveMetrics out d vs = some (text, d') ∧
      (saveMetrics = true → d' (out ++ ["metrics.txt".toList]) = some (.file text)) ∧
      (savePred = true → ∀ v ∈ vs, d' (predFileOf out v.1.path) = some (.file
        (runText fmt 1 ((byteBoxes sortRows v).map fun b => ⟨b.map BoxPred.pred, none⟩)))) ∧
      ∀ q, (saveMetrics = true → q ≠ out ++ ["metrics.txt".toList]) →
        (savePred = true → ∀ v ∈ vs, q ≠ predFileOf out v.1.path) →
        d' q = d q ∨ (d q = none ∧ d' q = some .dir ∧
          (savePred = true ∧ q <+: out ++ ["predictions".toList] ∨ saveMetrics = true ∧ q <+: out)) := by
  have h := (otherScript_ok (fmt := fmt)
    (run := fun g acc v => (byteSeq v.2 fmt sortRows acc v.1.path v.1.length v.1.rows).map fun r => (g, r.1, r.2))
    (pathOf := fun v : FilmSeq K Img × ByteOps K S => v.1.path) (shown := fun g v => some (g, byteBoxes sortRows v)) mm gt savePred
    saveMetrics out d vs (fun v hm => byte_shows fmt sortRows hs (hl v hm) (hv v hm)) hn hc hp hf).2 _ (byte_seqs sortRows vs 0)
      (fun bs hb => by
        obtain ⟨v, hv', rfl⟩ := List.mem_map.mp hb
        exact hne v hv') text tab (by
        rw [← hm, List.zipWith_map_right, List.zipWith_self])
  obtain ⟨d', h1, h2, h3, h4⟩ := h
  refine ⟨d', h1, h2, fun hsp v hvm => h3 hsp (v, byteBoxes sortRows v) ?_, h4⟩
  rw [List.zip_map_right, List.zip_eq_zipWith, List.zipWith_self]
  exact List.mem_map.mpr ⟨(v, v), List.mem_map.mpr ⟨v, hvm, rfl⟩, rfl⟩

/-- **C144** (the negation, exactly where) If in one of the sequences exactly one box is shown, the script with ByteTrack raises. -/
theorem C144_byte_raises (fmt : K → Str) (sortRows : List (List K) → List (List K)) (hs : SortsByFrame sortRows)
    (mm : MotMetrics K G Tab) (gt : Str → G) (savePred saveMetrics : Bool) (out : List Str) (d : Disk)
    (vs : List (FilmSeq K Img × ByteOps K S)) (hl : ∀ v ∈ vs, v.1.length = .int (framesIn v.1))
    (hv : ∀ v ∈ vs, ByteOk v.1.rows (framesIn v.1)) (hone : ∃ v ∈ vs, (byteBoxes sortRows v).flatten.length = 1) :
    byteScript fmt sortRows mm gt savePred saveMetrics out d vs = none := by
  obtain ⟨v, hm, h1⟩ := hone
  exact otherScript_one mm gt savePred saveMetrics out d vs (fun v hm => byte_shows fmt sortRows hs (hl v hm) (hv v hm))
    (byte_seqs sortRows vs 0) ⟨_, List.mem_map.mpr ⟨v, hm, rfl⟩, h1⟩

end

/-! ### Examples and witnesses -/

/-- a summary that counts the rows of each sequence -/
def countMmQ : MotMetrics ℚ Str Nat where
  default := ["mota".toList, "idf1".toList]
  summary cs ms overall := some ((cs.flatMap fun c => c.1 ++ " ".toList ++ intStr c.2.2.length ++ "\n".toList) ++
    (if overall then "OVERALL".toList else []), ms.length)

/-- another sequence: two frames with the same box -/
def twoSeq : FilmSeq ℚ ℤ := { filmSeq with
  path := "data/E".toList, length := .int 2, rows := [[1, -1, 3, 0, 2, 2, 1], [2, -1, 3, 0, 2, 2, 1]] }

/-- whole numbers as in the files -/
def wholeStr (x : ℚ) : Str := intStr ⌊x⌋

theorem twoSeq_tall : TallOk twoSeq 2 :=
  ⟨by decide, ⟨7, le_rfl, by decide +kernel⟩, rfl, by decide, by decide +kernel⟩

theorem homeDisk_clear : Clear homeDisk (["home".toList, "o".toList] ++ ["predictions".toList]) := by
  intro q hq text
  have hq := (List.mem_inits _ _).mpr hq
  simp only [List.cons_append, List.nil_append, List.inits_cons, List.inits, List.map_cons, List.map_nil, List.mem_cons,
    List.not_mem_nil, or_false] at hq
  rcases hq with rfl | rfl | rfl | rfl
  · rw [show homeDisk _ = some .dir by decide +kernel]; simp
  · rw [show homeDisk _ = some .dir by decide +kernel]; simp
  · rw [show homeDisk _ = some .dir by decide +kernel]; simp
  · rw [show homeDisk _ = none by decide +kernel]; simp

/-- C144_center_partial: the hypotheses hold ... -/
example : (∀ v ∈ [filmSeq, twoSeq], TallOk v (framesIn v)) ∧ ([filmSeq, twoSeq].map fun v => pathTail v.path).Nodup ∧
    SortsByFrame (K := ℚ) toySort ∧ FilterLaws (xyahCfg 0).flt NoFilter.Ok ∧
    Clear homeDisk (["home".toList, "o".toList] ++ ["predictions".toList]) ∧
    (∀ v ∈ [filmSeq, twoSeq], homeDisk (predFileOf ["home".toList, "o".toList] v.path) ≠ some .dir) ∧
    homeDisk (["home".toList, "o".toList] ++ ["metrics.txt".toList]) ≠ some .dir ∧
    ((seqsShown (centerShown (xyahCfg 0) toySort 0 ()) 0 [filmSeq, twoSeq]).map fun bss => bss.map fun bs =>
      bs.flatten.map (·.id)) = some [[1, 2, 1, 2, 1, 2, 1, 2], [1, 1]] := by
  refine ⟨?_, by decide +kernel, toySort_sorts, noFilter_laws, homeDisk_clear, by decide +kernel, by decide +kernel,
    by decide +kernel⟩
  intro v hv
  simp only [List.mem_cons, List.not_mem_nil, or_false] at hv
  rcases hv with rfl | rfl
  · exact filmSeq_tall
  · exact twoSeq_tall

set_option synthInstance.maxSize 2000 in
/-- ... and this is what is printed, in the file of the metrics, and in the second file of predictions -/
example : ((xyahScript (xyahCfg 0) wholeStr filmDraw toySort 0 () countMmQ (fun p => p) true true ["home".toList, "o".toList] homeDisk
      [filmSeq, twoSeq]).map fun r => (r.1, r.2 ["home".toList, "o".toList, "metrics.txt".toList],
        r.2 ["home".toList, "o".toList, "predictions".toList, "E.txt".toList])) =
    some ("P 8\nE 2\nOVERALL".toList, some (.file "P 8\nE 2\nOVERALL".toList),
      some (.file "1,1,3,0,2,2,-1,-1,-1,-1\n2,1,3,0,2,2,-1,-1,-1,-1\n".toList)) := by
  decide +kernel

/-- C144_byte_partial: the hypotheses hold ... -/
example : let vs := [(filmSeq, tinyBytes true), (twoSeq, tinyBytes true)]
    (∀ v ∈ vs, v.1.length = .int (framesIn v.1)) ∧ (∀ v ∈ vs, ByteOk v.1.rows (framesIn v.1)) ∧
    (vs.map fun v => pathTail v.1.path).Nodup ∧ (vs.map fun v => (byteBoxes toySort v).flatten.length) = [6, 2] := by
  refine ⟨?_, ?_, by decide +kernel, by decide +kernel⟩
  · intro v hv
    simp only [List.mem_cons, List.not_mem_nil, or_false] at hv
    rcases hv with rfl | rfl <;> rfl
  · intro v hv
    simp only [List.mem_cons, List.not_mem_nil, or_false] at hv
    rcases hv with rfl | rfl
    · exact ⟨filmSeq_tall.rows, filmSeq_tall.width, by decide⟩
    · exact ⟨twoSeq_tall.rows, twoSeq_tall.width, by decide⟩

set_option synthInstance.maxSize 2000 in
/-- ... and this is what is printed, in the file of the metrics, and in the second file of predictions -/
example : ((byteScript wholeStr toySort countMmQ (fun p => p) true true ["home".toList, "o".toList] homeDisk
      [(filmSeq, tinyBytes true), (twoSeq, tinyBytes true)]).map fun r => (r.1,
        r.2 ["home".toList, "o".toList, "metrics.txt".toList],
        r.2 ["home".toList, "o".toList, "predictions".toList, "E.txt".toList])) =
    some ("P 6\nE 2\nOVERALL".toList, some (.file "P 6\nE 2\nOVERALL".toList),
      some (.file "1,0,3,0,2,2,-1,-1,-1,-1\n2,1,3,0,2,2,-1,-1,-1,-1\n".toList)) := by
  decide +kernel

/-- **C144** Not so: if the tracker does not raise, the metrics are printed. With one sequence of exactly one box the script raises, and
the metrics of the other sequence are lost too. -/
theorem C144_false_one :
    (xyahScript (xyahCfg 1) wholeStr filmDraw toySort 0 () countMmQ (fun p => p) true true ["home".toList, "o".toList] homeDisk
      [filmSeq, twoSeq]).isNone = true ∧
    (xyahScript (xyahCfg 1) wholeStr filmDraw toySort 0 () countMmQ (fun p => p) true true ["home".toList, "o".toList] homeDisk
      [filmSeq]).isSome = true ∧
    ((seqsShown (centerShown (xyahCfg 1) toySort 0 ()) 0 [filmSeq, twoSeq]).map fun bss => bss.map fun bs =>
      bs.flatten.length) = some [6, 1] := by
  decide +kernel

/-- C144_center_raises, C144_byte_raises: exactly one box is shown -/
example : ((seqsShown (centerShown (xyahCfg 1) toySort 0 ()) 0 [filmSeq, twoSeq]).map fun bss => bss.map fun bs =>
      bs.flatten.length) = some [6, 1] ∧ TallOk twoSeq (framesIn twoSeq) ∧ ByteOk twoSeq.rows (framesIn twoSeq) ∧
    (byteBoxes toySort (twoSeq, { tinyBytes true with
      update := fun s c => (s + 1, if s = 1 then c.map fun r => ⟨r.getD 0 0, r.getD 1 0, r.getD 2 0, r.getD 3 0, 1⟩ else []) })).flatten.length
      = 1 :=
  ⟨by decide +kernel, twoSeq_tall, ⟨twoSeq_tall.rows, twoSeq_tall.width, by decide⟩, by decide +kernel⟩

end Norfair.Props
