import Verif.Spec.AlphaLoop
import Verif.Props.DemoLoop

/-! C142: the AlphaPose demo. -/

namespace Norfair.Props

open Norfair Norfair.Spec

set_option linter.unusedSectionVars false

variable {K D F H : Type}

section
variable [Field K] [LinearOrder K] [IsStrictOrderedRing K] [FloorRing K] [LinearOrder D] [OrderTop D] [Zero D]

theorem alphaDetections_eq {n : Nat} {f : PoseFrame K} (hf : ∀ p ∈ f.poses.getD [], p.length = n) :
    alphaDetections n f = some (alphaDets (f.poses.getD [])) := by
  unfold alphaDetections alphaDets
  refine mapM_bind_map fun p hp => ⟨_, rfl, ?_⟩
  rw [← hf p hp]
  rfl

theorem alphaCalls_rated {n : Nat} {frames : List (PoseFrame K)} (hf : ∀ f ∈ frames, ∀ p ∈ f.poses.getD [], p.length = n) :
    ∀ l ∈ newDets (alphaCalls frames), ∀ d ∈ l, DetRated (n, 2) d := by
  intro l hl d hd
  obtain ⟨c, hc, rfl⟩ := List.mem_map.mp hl
  obtain ⟨ps, hm, rfl⟩ := List.mem_map.mp hc
  obtain ⟨f, hfm, hps⟩ := List.mem_filterMap.mp hm
  obtain ⟨p, hp, rfl⟩ := List.mem_map.mp hd
  have hlen := hf f hfm p (by rw [hps]; exact hp)
  have hs : HasShape (n, 2) (⟨p.length, 2, p.flatMap fun x => [x.1, x.2.1]⟩ : Pts K) := by
    refine ⟨hlen, rfl, ?_⟩
    simp only [length_flatMap_pair, hlen]
  exact ⟨hs, hs, _, rfl, by simp [hlen]⟩

/-- the pictures, one frame after the other -/
def fillIn (dr : EvalDraw K Unit H) (flt : FilterOps K F) (n : Nat) :
    List (PoseFrame K) → List (List (Obj K Unit D F)) → List Pic
  | [], _ => []
  | f :: fs, acts =>
    match f.poses with
    | none => f.pic :: fillIn dr flt n fs acts
    | some _ => withObjs dr flt n [f.h, f.w, 3] (acts.headD []) f.pic :: fillIn dr flt n fs acts.tail

theorem fillIn_eq (dr : EvalDraw K Unit H) (flt : FilterOps K F) (n : Nat) (all : List (List (Obj K Unit D F)))
    (fs : List (PoseFrame K)) : ∀ pre : List (PoseFrame K),
    fillIn dr flt n fs (all.drop (posed pre)) =
      (fs.zipIdx pre.length).map fun y => alphaShot dr flt n all (posed ((pre ++ fs).take y.2)) y.1 := by
  induction fs with
  | nil => intro pre; rfl
  | cons f fs ih =>
    intro pre
    have h := ih (pre ++ [f])
    rw [List.length_append, List.length_singleton, List.append_assoc, List.singleton_append] at h
    rw [List.zipIdx_cons, List.map_cons, ← h, fillIn]
    have htake : (pre ++ f :: fs).take pre.length = pre := by simp
    simp only [htake, alphaShot]
    cases hp : f.poses with
    | none =>
      have : posed (pre ++ [f]) = posed pre := by simp [posed, hp]
      rw [this]
      simp
    | some ps =>
      have : posed (pre ++ [f]) = posed pre + 1 := by simp [posed, hp]
      rw [this]
      simp [List.tail_drop, List.headD_eq_head?_getD, List.getD_eq_getElem?_getD]

theorem fillIn_append (dr : EvalDraw K Unit H) (flt : FilterOps K F) (n : Nat) (pre fs : List (PoseFrame K)) :
    ∀ acts : List (List (Obj K Unit D F)),
    fillIn dr flt n (pre ++ fs) acts = fillIn dr flt n pre acts ++ fillIn dr flt n fs (acts.drop (posed pre)) := by
  induction pre with
  | nil => intro acts; rfl
  | cons f pre ih =>
    intro acts
    rw [List.cons_append, fillIn, fillIn]
    cases hp : f.poses with
    | none =>
      have : posed (f :: pre) = posed pre := by simp [posed, hp]
      rw [this]
      simp [ih]
    | some ps =>
      have : posed (f :: pre) = posed pre + 1 := by simp [posed, hp]
      rw [this]
      simp [ih, ← List.drop_one, Nat.add_comm]

theorem alphaLoop_eq (cfg : Cfg K Unit D F Unit) (dr : EvalDraw K Unit H) (n : Nat) (fs : List (PoseFrame K)) :
    ∀ (k : Nat) (w : World K Unit D F Unit),
    (∀ w' acts, trackCalls cfg w (((alphaCalls fs).zip (refsFrom k (newDets (alphaCalls fs)))).map fun c =>
        ((c.1.1.map fun _ => c.2, c.1.2) : Option (List Ref) × Int)) = some (w', acts) → ∀ act ∈ acts, ∀ f ∈ fs, ∀ pic,
      putObjects dr cfg.flt f.shape none act pic = some (withObjs dr cfg.flt n [f.h, f.w, 3] act pic)) →
    alphaLoop cfg dr w (fs.zip (refsFrom k (fs.map fun f => alphaDets (f.poses.getD [])))) =
      (trackCalls cfg w (((alphaCalls fs).zip (refsFrom k (newDets (alphaCalls fs)))).map fun c =>
        ((c.1.1.map fun _ => c.2, c.1.2) : Option (List Ref) × Int))).map fun r =>
        (r.1, fillIn dr cfg.flt n fs r.2) := by
  induction fs with
  | nil => intro k w _; rfl
  | cons f fs ih =>
    intro k w H
    rw [List.map_cons, refsFrom, List.zip_cons_cons, alphaLoop]
    cases hp : f.poses with
    | none =>
      have hc : alphaCalls (f :: fs) = alphaCalls fs := by simp [alphaCalls, hp]
      rw [hc] at H ⊢
      have := ih k w fun w' acts h act ha g hg => H w' acts h act ha g (List.mem_cons_of_mem _ hg)
      simp only [Option.getD_none, alphaDets, List.map_nil, List.length_nil, Nat.add_zero] at this ⊢
      rw [this, Option.map_map]
      congr 1
      funext r
      simp [fillIn, hp]
    | some ps =>
      have hc : alphaCalls (f :: fs) = (some (alphaDets ps), 1) :: alphaCalls fs := by simp [alphaCalls, hp]
      rw [hc] at H ⊢
      simp only [newDets, List.map_cons, Option.getD_some, refsFrom, List.zip_cons_cons, trackCalls, Option.map_some] at H ⊢
      match hu : update cfg w (some (List.range' k (alphaDets ps).length)) 1 none with
      | (_, .error _) => rfl
      | (w1, .ok act) =>
        rw [hu] at H
        simp only at H ⊢
        have H1 := ih (k + (alphaDets ps).length) w1 fun w' acts h act' ha g hg => by
          refine H w' (act :: acts) ?_ act' (List.mem_cons_of_mem _ ha) g (List.mem_cons_of_mem _ hg)
          simp only [newDets] at h
          rw [h]; rfl
        simp only [newDets] at H1
        rw [H1]
        cases ht : trackCalls cfg w1 (((alphaCalls fs).zip (refsFrom (k + (alphaDets ps).length)
            ((alphaCalls fs).map fun c => c.1.getD []))).map fun c =>
              ((c.1.1.map fun _ => c.2, c.1.2) : Option (List Ref) × Int)) with
        | none => cases putObjects dr cfg.flt f.shape none act f.pic <;> rfl
        | some r =>
          rw [ht] at H
          rw [H r.1 (act :: r.2) rfl act (List.mem_cons_self ..) f (List.mem_cons_self ..) f.pic]
          simp [fillIn, hp]

theorem alphaRun_fillIn {cfg : Cfg K Unit D F Unit} {Ok : F → Prop} (hL : FilterLaws cfg.flt Ok) {n : Nat}
    (dr : EvalDraw K Unit H) (hpal : dr.env.palette.colors ≠ []) (g : Nat) {frames : List (PoseFrame K)}
    (hf : ∀ f ∈ frames, (∀ p ∈ f.poses.getD [], p.length = n) ∧ 0 < f.h) :
    alphaRun cfg dr n g frames = (demoTrack cfg () () g (alphaCalls frames)).map fun r =>
      (r.1, fillIn dr cfg.flt n frames r.2) := by
  unfold alphaRun
  have hm : frames.mapM (alphaDetections n) = some (frames.map fun f => alphaDets (f.poses.getD [])) :=
    mapM_some_map fun f hm => alphaDetections_eq (hf f hm).1
  have hflat : ∀ fs : List (PoseFrame K), (fs.map fun f => alphaDets (f.poses.getD [])).flatten =
      (newDets (alphaCalls fs)).flatten := by
    intro fs
    induction fs with
    | nil => rfl
    | cons f fs ih =>
      cases hp : f.poses with
      | none =>
        have hc : alphaCalls (f :: fs) = alphaCalls fs := by simp [alphaCalls, hp]
        rw [hc, ← ih]
        simp [hp, alphaDets]
      | some ps =>
        have hc : alphaCalls (f :: fs) = (some (alphaDets ps), 1) :: alphaCalls fs := by simp [alphaCalls, hp]
        rw [hc, List.map_cons, List.flatten_cons, ih]
        simp [newDets, hp]
  rw [hm, Option.bind_some, hflat, demoTrack]
  refine alphaLoop_eq cfg dr n frames 0 _ fun w' acts ht act hact f hfm pic => ?_
  have hobj := ((demoTrack_shape hL () () g (s := (n, 2)) (fun l hl d hd =>
    (alphaCalls_rated (fun f hm => (hf f hm).1) l hl d hd).shaped)).1 w' acts ht).2 act hact
  exact putObjects_eq dr hpal cfg.flt (n := n) (shape := f.shape) (hf f hfm).2 none act hobj pic

/-- **C142** The AlphaPose demo processes a video exactly as a new tracker that is called once for each frame with boxes, with
the poses of this frame. Every frame is written, in order: the ones without boxes as they are, the others with a disc for each
live point of each returned object, and the id at their center. The whole raises only if a call of the tracker raises. -/
theorem C142_same_partial {cfg : Cfg K Unit D F Unit} {Ok : F → Prop} (hL : FilterLaws cfg.flt Ok) {n : Nat}
    (dr : EvalDraw K Unit H) (hpal : dr.env.palette.colors ≠ []) (g : Nat) {frames : List (PoseFrame K)}
    (hf : ∀ f ∈ frames, (∀ p ∈ f.poses.getD [], p.length = n) ∧ 0 < f.h) :
    alphaRun cfg dr n g frames = (demoTrack cfg () () g (alphaCalls frames)).map fun r =>
      (r.1, frames.zipIdx.map fun y => alphaShot dr cfg.flt n r.2 (posed (frames.take y.2)) y.1) := by
  rw [alphaRun_fillIn hL dr hpal g hf]
  congr 1
  funext r
  have := fillIn_eq dr cfg.flt n r.2 frames []
  rw [show posed ([] : List (PoseFrame K)) = 0 from rfl, List.drop_zero, List.length_nil, List.nil_append] at this
  rw [this]

/-- **C142** Frames without boxes are for the tracker as if they were not in the video, however many there are: the objects
after them are the same, and the frames after them are written with the same objects. -/
theorem C142_gap {cfg : Cfg K Unit D F Unit} {Ok : F → Prop} (hL : FilterLaws cfg.flt Ok) {n : Nat}
    (dr : EvalDraw K Unit H) (hpal : dr.env.palette.colors ≠ []) (g : Nat) {pre gap post : List (PoseFrame K)}
    (hf : ∀ f ∈ pre ++ gap ++ post, (∀ p ∈ f.poses.getD [], p.length = n) ∧ 0 < f.h) (hg : ∀ f ∈ gap, f.poses = none) :
    (alphaRun cfg dr n g (pre ++ gap ++ post)).map (fun r => (r.1, r.2.take pre.length, r.2.drop (pre.length + gap.length))) =
      (alphaRun cfg dr n g (pre ++ post)).map fun r => (r.1, r.2.take pre.length, r.2.drop pre.length) := by
  have hgap : gap.filterMap (·.poses) = [] := List.filterMap_eq_nil_iff.mpr hg
  have hc : alphaCalls (pre ++ gap ++ post) = alphaCalls (pre ++ post) := by
    simp [alphaCalls, List.filterMap_append, hgap]
  have hlen : ∀ (fs : List (PoseFrame K)) (acts : List (List (Obj K Unit D F))),
      (fillIn dr cfg.flt n fs acts).length = fs.length := by
    intro fs
    induction fs with
    | nil => intro acts; rfl
    | cons f fs ih => intro acts; rw [fillIn]; split <;> simp [ih]
  rw [alphaRun_fillIn hL dr hpal g hf, alphaRun_fillIn hL dr hpal g (fun f hm => hf f (by
    rcases List.mem_append.mp hm with h | h <;> simp [h])), hc, Option.map_map, Option.map_map]
  congr 1
  funext r
  have e : posed (pre ++ gap) = posed pre := by simp [posed, List.filterMap_append, hgap]
  have t1 : (fillIn dr cfg.flt n (pre ++ gap ++ post) r.2).take pre.length = fillIn dr cfg.flt n pre r.2 := by
    rw [List.append_assoc, fillIn_append, List.take_append_of_le_length (by rw [hlen]), List.take_of_length_le (by rw [hlen])]
  have t2 : (fillIn dr cfg.flt n (pre ++ post) r.2).take pre.length = fillIn dr cfg.flt n pre r.2 := by
    rw [fillIn_append, List.take_append_of_le_length (by rw [hlen]), List.take_of_length_le (by rw [hlen])]
  have d1 : (fillIn dr cfg.flt n (pre ++ gap ++ post) r.2).drop (pre.length + gap.length) =
      fillIn dr cfg.flt n post (r.2.drop (posed pre)) := by
    rw [fillIn_append, e, List.drop_append_of_le_length (by rw [hlen, List.length_append]), List.drop_of_length_le
      (by rw [hlen, List.length_append]), List.nil_append]
  have d2 : (fillIn dr cfg.flt n (pre ++ post) r.2).drop pre.length = fillIn dr cfg.flt n post (r.2.drop (posed pre)) := by
    rw [fillIn_append, List.drop_append_of_le_length (by rw [hlen]), List.drop_of_length_le (by rw [hlen]), List.nil_append]
  simp only [Function.comp, t1, t2, d1, d2]

end

/-- **C142** The tracker of the demo can be made, and every video of frames of one height is processed to its end: no call
raises, whatever AlphaPose sees, and as many frames are written as were read. -/
theorem C142_to_the_end {flt : FilterOps ℝ F} {Ok : F → Prop} (hL : FilterLaws flt Ok) (str : Unit → String)
    (cdist : String → List (List ℝ) → List (List ℝ) → Option (Mat (Option (WithTop ℝ)))) {height : Nat} (hh : 0 < height)
    (dr : EvalDraw ℝ Unit H) (hpal : dr.env.palette.colors ≠ []) :
    ∃ cfg, mkTracker str cdist (alphaArgs flt height) = some cfg ∧ ∀ n g (frames : List (PoseFrame ℝ)),
      (∀ f ∈ frames, (∀ p ∈ f.poses.getD [], p.length = n) ∧ f.h = height) →
      ∃ w' pics, alphaRun cfg dr n g frames = some (w', pics) ∧ pics.length = frames.length := by
  suffices ends : ∀ cfg : Cfg ℝ Unit (WithTop ℝ) F Unit, cfg.flt = flt →
      (∃ f, cfg.dist = .scalar f ∧ ∀ n, ScoredDist flt (fun _ => (n, 2)) f) →
      cfg.reid = none → cfg.thr ≤ cfg.fill → ∀ n g (frames : List (PoseFrame ℝ)),
      (∀ f ∈ frames, (∀ p ∈ f.poses.getD [], p.length = n) ∧ f.h = height) →
      ∃ w' pics, alphaRun cfg dr n g frames = some (w', pics) ∧ pics.length = frames.length by
    refine ⟨_, rfl, ends _ rfl ⟨_, rfl, fun n => C67_voting flt _ _ _⟩ rfl ?_⟩
    show ((3 / 10 : ℝ) : WithTop ℝ) ≤ ((3 / 10 : ℝ) : WithTop ℝ) + 1
    exact WithTop.coe_le_coe.mpr (by norm_num)
  rintro cfg rfl ⟨f, hf, hD⟩ hre hfill n g frames hfr
  have hd := alphaCalls_rated fun f hm => (hfr f hm).1
  obtain ⟨⟨w', acts⟩, ht⟩ := demoTrack_rated hL () () g hd hf (hD n) hre hfill
  rw [C142_same_partial hL dr hpal g fun f hm => ⟨(hfr f hm).1, by rw [(hfr f hm).2]; exact hh⟩, ht]
  exact ⟨_, _, rfl, by simp⟩

open Classical in
/-- **C142** The tracker of the demo takes a pose for a tracked one only if at least three keypoints are closer than a 30th of the
height of the frame to where they are expected, and were seen with a score above 0.2 now and before. With the default counters:
at most 15, and 7 for the beginning. -/
theorem C142_close (flt : FilterOps ℝ F) (str : Unit → String)
    (cdist : String → List (List ℝ) → List (List ℝ) → Option (Mat (Option (WithTop ℝ)))) (height : Nat) :
    ∃ cfg, mkTracker str cdist (alphaArgs flt height) = some cfg ∧ cfg.hitCounterMax = 15 ∧ cfg.initDelay = 7 ∧
      cfg.detThr = 2 / 10 ∧ ∃ f, cfg.dist = .scalar f ∧ ∀ (d : Det ℝ Unit Unit) (v : ObjView ℝ Unit (WithTop ℝ) F Unit) s t,
        SameShape d.points (v.obj.estimate flt) → d.scores = some s → v.last.scores = some t → s.length = d.points.n →
        t.length = d.points.n → ∃ x, f d v = some (some x) ∧
          (x < cfg.thr ↔ 3 ≤ ((Finset.range d.points.n).filter
            (Votes ((height : ℝ) / 30) (2 / 10) d.points (v.obj.estimate flt) s t)).card) := by
  refine ⟨_, rfl, rfl, rfl, ?_, _, rfl, fun d v s t hsh hs ht h1 h2 => ?_⟩
  · show (1 / 5 : ℝ) = 2 / 10
    norm_num
  · simp only [hs, ht]
    rw [C40_votes _ _ hsh h1 h2, show (1 / 5 : ℝ) = 2 / 10 by norm_num]
    refine ⟨_, rfl, ?_⟩
    generalize Finset.card _ = k
    show ((1 / (1 + (k : ℝ)) : ℝ) : WithTop ℝ) < ((3 / 10 : ℝ) : WithTop ℝ) ↔ 3 ≤ k
    rw [WithTop.coe_lt_coe, div_lt_iff₀ (by positivity)]
    constructor
    · intro h
      have : (2 : ℝ) < k := by linarith
      exact_mod_cast this
    · intro h
      have : (3 : ℝ) ≤ k := by exact_mod_cast h
      linarith

/-! ### Witnesses and examples -/

/-- `C142_close`: poses of 17 keypoints have the same shape and length of scores -/
example : SameShape (⟨17, 2, List.replicate 34 1⟩ : Pts ℝ) ⟨17, 2, List.replicate 34 2⟩ ∧
    (List.replicate 17 (9 / 10 : ℝ)).length = (⟨17, 2, List.replicate 34 1⟩ : Pts ℝ).n :=
  ⟨⟨rfl, rfl⟩, by simp⟩

/-- **C142** (false) Objects do not age with every frame: someone is seen in five frames and returned in the last of them, then
there are no boxes in 40 frames, then there are boxes, but no pose is left by `pose_nms`. The person is still drawn. A
tracker that is called for every frame returns the person in five more frames and then no longer. -/
theorem C142_false_age :
    ((demoTrack bodyCfg () () 0 (alphaCalls (List.replicate 5 bodyFrame ++ List.replicate 40 blindFrame ++
        [{ bodyFrame with poses := some [] }]))).map fun r => r.2.map List.length) = some [0, 0, 0, 0, 1, 1] ∧
    ((alphaRun bodyCfg bodyDraw 2 0 (List.replicate 5 bodyFrame ++ List.replicate 40 blindFrame ++
        [{ bodyFrame with poses := some [] }])).map fun r => (r.2.length, (r.2.drop 4).map fun p => p (20, 30) 1)) =
      some (46, 1 :: List.replicate 40 9 ++ [1]) ∧
    ((demoTrack bodyCfg () () 0 (List.replicate 5 (some (alphaDets [[(20, 30, 9 / 10), (22, 50, 8 / 10)]]), 1) ++
        List.replicate 41 (none, 1))).map fun r => (r.2.drop 4).map List.length) =
      some (List.replicate 6 1 ++ List.replicate 36 0) := by
  refine ⟨by decide +kernel, by decide +kernel, by decide +kernel⟩

/-- the hypotheses of `C142_same_partial` and `C142_gap` -/
example : (∀ f ∈ List.replicate 5 bodyFrame ++ List.replicate 40 blindFrame ++ [bodyFrame],
      (∀ p ∈ f.poses.getD [], p.length = 2) ∧ 0 < f.h) ∧
    (∀ f ∈ List.replicate 40 blindFrame, f.poses = none) ∧ bodyDraw.env.palette.colors ≠ [] := by
  refine ⟨fun f hf => ?_, fun f hf => by rw [List.eq_of_mem_replicate hf]; rfl, by decide⟩
  rcases List.mem_append.mp hf with hf | hf
  · rcases List.mem_append.mp hf with hf | hf <;> rw [List.eq_of_mem_replicate hf]
    · exact ⟨by simp [bodyFrame], by decide⟩
    · exact ⟨by simp [blindFrame], by decide⟩
  · rw [List.mem_singleton.mp hf]
    exact ⟨by simp [bodyFrame], by decide⟩

/-- the hypotheses of `C142_to_the_end`: a video of six frames -/
example (dr : EvalDraw ℝ Unit H) (hpal : dr.env.palette.colors ≠ []) (pic : Pic) :
    ∃ cfg, mkTracker (fun _ => "None") (fun _ _ _ => none) (alphaArgs (okfOps realOkf) 720) = some cfg ∧ ∃ w' pics,
      alphaRun cfg dr 17 0 (List.replicate 6 ⟨720, 1280, pic, some [List.replicate 17 (100, 200, 9 / 10)], []⟩) =
        some (w', pics) ∧ pics.length = 6 := by
  obtain ⟨cfg, h1, h2⟩ := C142_to_the_end (okf_laws realOkf) (fun _ => "None") (fun _ _ _ => none) (height := 720)
    (by norm_num) dr hpal
  refine ⟨cfg, h1, ?_⟩
  obtain ⟨w', pics, h3, h4⟩ := h2 17 0 (List.replicate 6 ⟨720, 1280, pic, some [List.replicate 17 (100, 200, 9 / 10)], []⟩)
    fun f hf => by
      rw [List.eq_of_mem_replicate hf]
      exact ⟨fun p hp => by rw [List.mem_singleton.mp hp]; simp, rfl⟩
  exact ⟨w', pics, h3, by rw [h4]; simp⟩

end Norfair.Props
