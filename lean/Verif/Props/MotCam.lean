import Verif.Spec.MotCam
import Verif.Props.MotLoop
import Verif.Props.Cutout
import Verif.Props.CameraMotion

/-! C107: the evaluation on MOTChallenge data with camera motion. -/

set_option linter.unusedSectionVars false

namespace Norfair.Props

open Norfair Norfair.Spec

variable {K L D F X Img G T : Type}

/-! ### The mask -/

section
variable [Field K] [LinearOrder K] [IsStrictOrderedRing K] [FloorRing K]

theorem clearBox_size (p : Pts K) (m : Image Bool) : (clearBox m p).h = m.h ∧ (clearBox m p).w = m.w := ⟨rfl, rfl⟩

theorem clearBox_px {p : Pts K} (hp : WithinTopLeft p) (m : Image Bool) (y x : Nat) (hy : y < m.h) (hx : x < m.w) :
    (clearBox m p).px y x = false ↔ m.px y x = false ∨ Covers p y x := by
  obtain ⟨x0, y0, x1, y1, e, h1, h2, h3, h4⟩ := hp
  have hc : Covers p y x ↔ (x0 < (x : K) + 1 ∧ (x : K) + 1 ≤ x1) ∧ y0 < (y : K) + 1 ∧ (y : K) + 1 ≤ y1 := by
    unfold Covers
    rw [e]
    constructor
    · rintro ⟨a, b, c, d, h, h'⟩
      simp only [List.cons.injEq, and_true] at h
      obtain ⟨rfl, rfl, rfl, rfl⟩ := h
      exact h'
    · intro h
      exact ⟨_, _, _, _, rfl, h⟩
  have e1 : clearBox m p = m.clear (truncInt y0) (truncInt y1) (truncInt x0) (truncInt x1) := by
    simp [clearBox, e]
  rw [e1, hc, ← truncInt_le_iff, ← lt_truncInt_iff, ← truncInt_le_iff, ← lt_truncInt_iff]
  have p1 := truncInt_nonneg h1
  have p2 := truncInt_nonneg h2
  have p3 := truncInt_nonneg h3
  have p4 := truncInt_nonneg h4
  unfold Image.clear
  simp only [sliceLimit_nonneg p1, sliceLimit_nonneg p2, sliceLimit_nonneg p3, sliceLimit_nonneg p4]
  split
  · rename_i h
    simp only [true_iff]
    right
    omega
  · rename_i h
    constructor
    · exact Or.inl
    · rintro (h' | h')
      · exact h'
      · exact absurd (by omega) h

theorem clearBoxes_px (ps : List (Pts K)) : ∀ m : Image Bool, (∀ p ∈ ps, WithinTopLeft p) →
    (ps.foldl clearBox m).h = m.h ∧ (ps.foldl clearBox m).w = m.w ∧
    ∀ y x, y < m.h → x < m.w → ((ps.foldl clearBox m).px y x = false ↔ m.px y x = false ∨ ∃ p ∈ ps, Covers p y x) := by
  induction ps with
  | nil => intro m _; exact ⟨rfl, rfl, by simp⟩
  | cons p ps ih =>
    intro m h
    obtain ⟨h1, h2, h3⟩ := ih (clearBox m p) fun q hq => h q (List.mem_cons_of_mem _ hq)
    refine ⟨h1, h2, fun y x hy hx => ?_⟩
    rw [List.foldl_cons, h3 y x hy hx, clearBox_px (h p (List.mem_cons_self ..)) m y x hy hx, or_assoc]
    simp

/-- **C107** The mask has the size of the frame and is 0 exactly on the pixels covered by the box of a detection or by
the estimate of a tracked object, if no coordinate of them is -1 or less. Missing for the full claim: boxes that are
partly or wholly outside the picture, at the left or at the top, see `C107_false_mask`. -/
theorem C107_mask_partial (size : Nat × Nat) (dets objs : List (Pts K)) (hd : ∀ p ∈ dets, WithinTopLeft p)
    (ho : ∀ p ∈ objs, WithinTopLeft p) :
    (buildMask size dets objs).h = size.1 ∧ (buildMask size dets objs).w = size.2 ∧
    ∀ y x, y < size.1 → x < size.2 →
      ((buildMask size dets objs).px y x = false ↔ ∃ p ∈ dets ++ objs, Covers p y x) := by
  obtain ⟨a1, a2, a3⟩ := clearBoxes_px dets ⟨size.1, size.2, fun _ _ => true⟩ hd
  obtain ⟨b1, b2, b3⟩ := clearBoxes_px objs (dets.foldl clearBox ⟨size.1, size.2, fun _ _ => true⟩) ho
  refine ⟨b1.trans a1, b2.trans a2, fun y x hy hx => ?_⟩
  unfold buildMask
  rw [b3 y x (a1 ▸ hy) (a2 ▸ hx), a3 y x hy hx]
  simp only [Bool.true_eq_false, false_or, List.mem_append]
  constructor
  · rintro (⟨p, h, h'⟩ | ⟨p, h, h'⟩)
    · exact ⟨p, .inl h, h'⟩
    · exact ⟨p, .inr h, h'⟩
  · rintro ⟨p, h | h, h'⟩
    · exact .inl ⟨p, h, h'⟩
    · exact .inr ⟨p, h, h'⟩

end

/-- the zeros of a mask -/
def zeros (m : Image Bool) : List (Nat × Nat) :=
  (List.range m.h).flatMap fun y => ((List.range m.w).filter fun x => !m.px y x).map fun x => (y, x)

/-- C107_mask_partial: the hypotheses hold, and these are the zeros -/
example : WithinTopLeft (⟨2, 2, [-1/2, 1, 5/2, 3]⟩ : Pts ℚ) ∧ WithinTopLeft (⟨2, 2, [3, 2, 40, 3]⟩ : Pts ℚ) ∧
    zeros (buildMask (4, 5) [⟨2, 2, [(-1/2 : ℚ), 1, 5/2, 3]⟩] [⟨2, 2, [3, 2, 40, 3]⟩]) =
      [(1, 0), (1, 1), (2, 0), (2, 1), (2, 3), (2, 4)] := by
  refine ⟨⟨_, _, _, _, rfl, by norm_num⟩, ⟨_, _, _, _, rfl, by norm_num⟩, by decide +kernel⟩

/-- **C107** (the negation) Of a box that is partly outside the picture, at the left, nothing is masked, although it
covers pixels; of one that is wholly outside, the opposite corner of the picture is masked. -/
theorem C107_false_mask :
    (Covers (⟨2, 2, [(-2 : ℚ), 0, 2, 2]⟩ : Pts ℚ) 0 0 ∧
      zeros (buildMask (5, 5) [⟨2, 2, [(-2 : ℚ), 0, 2, 2]⟩] []) = []) ∧
    ((∀ y x, ¬ Covers (⟨2, 2, [(-3 : ℚ), -3, -1, -1]⟩ : Pts ℚ) y x) ∧
      zeros (buildMask (5, 5) [⟨2, 2, [(-3 : ℚ), -3, -1, -1]⟩] []) = [(2, 2), (2, 3), (3, 2), (3, 3)]) := by
  refine ⟨⟨⟨-2, 0, 2, 2, rfl, by norm_num, by norm_num⟩, by decide +kernel⟩, ?_, by decide +kernel⟩
  rintro y x ⟨a, b, c, d, h, ⟨-, h1⟩, -⟩
  simp only [List.cons.injEq, and_true] at h
  obtain ⟨-, -, rfl, -⟩ := h
  have : (0 : ℚ) ≤ x := Nat.cast_nonneg x
  linarith

/-! ### The points -/

section
variable {Mask : Type}

/-- the points of the reference frame that are still followed -/
structure FromRef (fl : Flow K Img Mask) (fs : List (Img × Option Mask)) (k : Nat) (s : MotionEstimator K Img Mask G) :
    Prop where
  ref : ∀ r, s.grayPrvs = some r → ∃ j < k, fs[j]? = some (r, s.prevMask)
  pts : ∀ p, s.prevPts = some p → ∃ r l, s.grayPrvs = some r ∧ fl.corners r s.prevMask = some l ∧ p ⊆ l

theorem sparse_prev {fl : Flow K Img Mask} {next prvs : Img} {prevPts : Option (List (K × K))} {mask : Option Mask}
    {c p : List (K × K)} (h : fl.sparse next prvs prevPts mask = some (c, p)) :
    ∃ l, (prevPts = some l ∨ (prevPts = none ∧ fl.corners prvs mask = some l)) ∧ p ⊆ l := by
  unfold Flow.sparse at h
  have key : ∀ l : List (K × K), (match fl.track prvs next l with
      | none => none
      | some (c, status) =>
        some (((c.zip status).filter (·.2)).map (·.1), ((l.zip status).filter (·.2)).map (·.1))) = some (c, p) →
      p ⊆ l := by
    intro l h
    split at h
    · cases h
    · cases h
      intro x hx
      obtain ⟨q, hq, rfl⟩ := List.mem_map.mp hx
      exact (List.of_mem_zip (List.mem_filter.mp hq).1).1
  cases prevPts with
  | some l => exact ⟨l, .inl rfl, key l h⟩
  | none =>
    simp only at h
    cases hc : fl.corners prvs mask with
    | none => rw [hc] at h; cases h
    | some l => rw [hc] at h; exact ⟨l, .inr ⟨rfl, rfl⟩, key l h⟩

/-- the points that are compared in a call come from the reference frame -/
theorem fromRef_prev {fl : Flow K Img Mask} {fs : List (Img × Option Mask)} {k : Nat}
    {s : MotionEstimator K Img Mask G} (hs : FromRef fl fs k s) {img : Img} {mask : Option Mask}
    (hk : fs[k]? = some (img, mask)) {r : Img} {m : Option Mask} (hr : IsRef s img mask r m) {c p : List (K × K)}
    (h : fl.sparse img r s.prevPts m = some (c, p)) :
    ∃ j ≤ k, fs[j]? = some (r, m) ∧ ∃ l, fl.corners r m = some l ∧ p ⊆ l := by
  obtain ⟨l, h1, h2⟩ := sparse_prev h
  have hj : ∃ j ≤ k, fs[j]? = some (r, m) := by
    rcases hr with ⟨e1, rfl⟩ | ⟨e1, rfl, rfl⟩
    · obtain ⟨j, hj, e⟩ := hs.ref _ e1
      exact ⟨j, hj.le, e⟩
    · exact ⟨k, le_refl k, hk⟩
  obtain ⟨j, hj, e⟩ := hj
  refine ⟨j, hj, e, ?_⟩
  rcases h1 with h1 | ⟨-, h1⟩
  · obtain ⟨r', l', e1, e2, e3⟩ := hs.pts _ h1
    rcases hr with ⟨e4, rfl⟩ | ⟨e4, -⟩
    · rw [e1] at e4
      cases e4
      exact ⟨l', e2, fun x hx => e3 (h2 hx)⟩
    · rw [e1] at e4; cases e4
  · exact ⟨l, h1, h2⟩

theorem fromRef_step {fl : Flow K Img Mask} {g0 : G}
    {call : G → Option (List (K × K)) → Option (List (K × K)) → Option (G × Bool × Option T)}
    {fs : List (Img × Option Mask)} {k : Nat} {s : MotionEstimator K Img Mask G} (hs : FromRef fl fs k s) {img : Img}
    {mask : Option Mask} (hk : fs[k]? = some (img, mask)) : FromRef fl fs (k + 1) (s.update fl g0 call img mask).1 := by
  obtain ⟨r, m, hr, hu⟩ : ∃ r m, IsRef s img mask r m ∧ ((∃ g, (s.update fl g0 call img mask).1 =
      ⟨some img, none, mask, g⟩) ∨ ∃ g, (s.update fl g0 call img mask).1 =
        ⟨some r, (fl.sparse img r s.prevPts m).map (·.2), m, g⟩) := by
    unfold MotionEstimator.update
    cases h : s.grayPrvs with
    | none =>
      refine ⟨img, mask, .inr ⟨h, rfl, rfl⟩, ?_⟩
      simp only [Option.getD_none]
      split_ifs
      · exact .inl ⟨_, rfl⟩
      · exact .inr ⟨_, rfl⟩
    | some r =>
      refine ⟨r, s.prevMask, .inl ⟨h, rfl⟩, ?_⟩
      simp only [Option.getD_some]
      split_ifs
      · exact .inl ⟨_, rfl⟩
      · exact .inr ⟨_, rfl⟩
  rcases hu with ⟨g, hu⟩ | ⟨g, hu⟩
  · rw [hu]
    exact ⟨fun r' h => by cases h; exact ⟨k, by omega, hk⟩, (fun p h => nomatch h)⟩
  · rw [hu]
    refine ⟨?_, ?_⟩
    · intro r' h
      cases h
      rcases hr with ⟨e1, rfl⟩ | ⟨e1, rfl, rfl⟩
      · obtain ⟨j, hj, e⟩ := hs.ref _ e1
        exact ⟨j, by omega, e⟩
      · exact ⟨k, by omega, hk⟩
    · intro p hp
      obtain ⟨⟨c, p'⟩, h1, rfl⟩ := Option.map_eq_some_iff.mp hp
      obtain ⟨-, -, -, l, h2, h3⟩ := fromRef_prev hs hk hr h1
      exact ⟨r, l, rfl, h2, h3⟩

theorem fromRef_states {fl : Flow K Img Mask} {g0 : G}
    {call : G → Option (List (K × K)) → Option (List (K × K)) → Option (G × Bool × Option T)} {fs : List (Img × Option Mask)}
    (post : List (Img × Option Mask)) : ∀ (pre : List (Img × Option Mask)) (s : MotionEstimator K Img Mask G),
    fs = pre ++ post → FromRef fl fs pre.length s → ∀ (i : Nat) (s' : MotionEstimator K Img Mask G),
    (estStates fl g0 call s post)[i]? = some s' → FromRef fl fs (pre.length + i) s' := by
  induction post with
  | nil =>
    intro pre s _ hs i s' h
    match i, h with
    | 0, h => cases h; exact hs
  | cons f post ih =>
    intro pre s e hs i s' h
    match i, h with
    | 0, h => cases h; exact hs
    | i + 1, h =>
      have := ih (pre ++ [f]) (s.update fl g0 call f.1 f.2).1 (by simp [e]) (by
        rw [List.length_append]
        exact fromRef_step hs (by simp [e])) i s' h
      rw [List.length_append, List.length_singleton, Nat.add_assoc, Nat.add_comm 1] at this
      exact this

end

section
variable [Ring K]

/-- **C107** The movement of the camera is found, in every frame, from points in pixels where a mask is 1, which is the
one of the frame in which these points were found: if `s` is the state before frame `k` and `r`, `m` are reference frame
and mask, the old places of the points that are passed to the getter are of this kind. -/
theorem C107_points {fl : Flow K Img (Image Bool)} (hfl : Respects fl) {g0 : G}
    {call : G → Option (List (K × K)) → Option (List (K × K)) → Option (G × Bool × Option T)}
    (fs : List (Img × Option (Image Bool))) (hm : ∀ f ∈ fs, f.2 ≠ none) {k : Nat} {img : Img}
    {mask : Option (Image Bool)} (hk : fs[k]? = some (img, mask)) {s : MotionEstimator K Img (Image Bool) G}
    (hs : (estStates fl g0 call (MotionEstimator.create g0) fs)[k]? = some s) {r : Img} {m : Option (Image Bool)}
    (hr : IsRef s img mask r m) {curr prev : List (K × K)} (h : fl.sparse img r s.prevPts m = some (curr, prev)) :
    ∃ j ≤ k, ∃ b, fs[j]? = some (r, some b) ∧ ∀ p ∈ prev, ∃ y x : Nat, p = ((x : K), (y : K)) ∧ y < b.h ∧ x < b.w ∧
      b.px y x = true := by
  have h0 : FromRef fl fs 0 (MotionEstimator.create (K := K) (Img := Img) (Mask := Image Bool) g0) :=
    ⟨(fun r h => nomatch h), (fun p h => nomatch h)⟩
  have hf := fromRef_states (fl := fl) (g0 := g0) (call := call) fs [] _ rfl h0 k s hs
  rw [List.length_nil, Nat.zero_add] at hf
  obtain ⟨j, hj, e, l, h1, h2⟩ := fromRef_prev hf hk hr h
  obtain ⟨b, rfl⟩ := Option.ne_none_iff_exists'.mp (hm _ (List.mem_of_getElem? e))
  exact ⟨j, hj, b, e, fun p hp => hfl _ _ _ h1 p (h2 hp)⟩

end

/-! ### The loop -/

section
variable [Ring K] [LinearOrder K] [FloorRing K] [LinearOrder D] [OrderTop D] [Zero D] [DecidableEq L]

/-- what the tracker gets from the estimator -/
def camCts (cam : MotCam K Img G T) (e : MotionEstimator K Img (Image Bool) G) (imgs : List Img)
    (masks : List (Image Bool)) : List (Option (CoordTrans K)) :=
  (e.outputs cam.flow cam.g0 cam.call (imgs.zip (masks.map some))).map (Option.map cam.ct)

theorem camFrames_eq {cfg : Cfg K L D F X} (fmt : K → Str) (cam : MotCam K Img G T) (H : Ref → Pts K)
    (cs : List (Img × List Ref)) : ∀ (s : MotState K L D F X) (e : MotionEstimator K Img (Image Bool) G)
    (objs : List (Obj K L D F)), Inv s.world → (∀ r, (s.world.heap r).points = H r) →
    ∃ masks : List (Image Bool), masks.length = cs.length ∧
      motCamFrames cfg fmt cam s e objs cs =
        motFrames cfg fmt s ((cs.map (·.2)).zip (camCts cam e (cs.map (·.1)) masks)) ∧
      ∀ (w' : World K L D F X) (acts : List (List (Obj K L D F))),
        trackAll cfg s.world ((cs.map (·.2)).zip (camCts cam e (cs.map (·.1)) masks)) = some (w', acts) →
        ∀ (k : Nat) (c : Img × List Ref), cs[k]? = some c → masks[k]? = some (buildMask (cam.size c.1) (c.2.map H)
          (((objs :: acts)[k]?.getD []).map (·.estimate cfg.flt))) := by
  induction cs with
  | nil => intro s e objs _ _; exact ⟨[], rfl, rfl, fun _ _ _ k c h => by cases h⟩
  | cons c cs ih =>
    intro s e objs hI hH
    obtain ⟨img, dets⟩ := c
    let mask := buildMask (cam.size img) (dets.map H) (objs.map (·.estimate cfg.flt))
    have hmask : buildMask (cam.size img) (dets.map fun r => (s.world.heap r).points)
        (objs.map (·.estimate cfg.flt)) = mask := by
      simp only [hH]; rfl
    let m := e.update cam.flow cam.g0 cam.call img (some mask)
    have hcts : ∀ masks, camCts cam e (img :: cs.map (·.1)) (mask :: masks) =
        m.2.map cam.ct :: camCts cam m.1 (cs.map (·.1)) masks := fun _ => rfl
    rcases hu : update cfg s.world (some dets) 1 (m.2.map cam.ct) with ⟨w, er | act⟩
    · refine ⟨mask :: List.replicate cs.length mask, by simp, ?_, ?_⟩
      · simp only [motCamFrames, hmask, List.map_cons, hcts, List.zip_cons_cons, motFrames]
        rw [show e.update cam.flow cam.g0 cam.call img (some mask) = m from rfl, hu]
      · intro w' acts h
        simp only [List.map_cons, hcts, List.zip_cons_cons, trackAll, hu] at h
        cases h
    · have hI' : Inv w := by have := (update_inv (cfg := cfg) hI (some dets) 1 (m.2.map cam.ct)).1; rwa [hu] at this
      have hH' : ∀ r, (w.heap r).points = H r := fun r =>
        heap_keeps (Q := fun d => d.points = H r) (fun _ _ h => h) (fun _ _ _ h => h) hI hu r (hH r)
      have main : ∀ st : MotState K L D F X, st.world = w →
          (∀ l, motFrames cfg fmt s ((dets, m.2.map cam.ct) :: l) = none ∧
            motCamFrames cfg fmt cam s e objs ((img, dets) :: cs) = none ∨
            motFrames cfg fmt s ((dets, m.2.map cam.ct) :: l) = motFrames cfg fmt st l ∧
            motCamFrames cfg fmt cam s e objs ((img, dets) :: cs) = motCamFrames cfg fmt cam st m.1 act cs) →
          ∃ masks : List (Image Bool), masks.length = cs.length + 1 ∧
            motCamFrames cfg fmt cam s e objs ((img, dets) :: cs) =
              motFrames cfg fmt s ((dets :: cs.map (·.2)).zip (camCts cam e (img :: cs.map (·.1)) masks)) ∧
            ∀ (w' : World K L D F X) (acts : List (List (Obj K L D F))),
              trackAll cfg s.world ((dets :: cs.map (·.2)).zip (camCts cam e (img :: cs.map (·.1)) masks)) =
              some (w', acts) → ∀ (k : Nat) (c : Img × List Ref), ((img, dets) :: cs)[k]? = some c →
                masks[k]? = some (buildMask (cam.size c.1) (c.2.map H)
                  (((objs :: acts)[k]?.getD []).map (·.estimate cfg.flt))) := by
        intro st hst h
        obtain ⟨masks, h1, h2, h3⟩ := ih st m.1 act (hst ▸ hI') (hst ▸ hH')
        refine ⟨mask :: masks, by simp [h1], ?_, ?_⟩
        · rw [hcts, List.zip_cons_cons]
          rcases h ((cs.map (·.2)).zip (camCts cam m.1 (cs.map (·.1)) masks)) with ⟨a, b⟩ | ⟨a, b⟩
          · rw [a, b]
          · rw [a, b, h2]
        · intro w' acts ht k c hc
          simp only [hcts, List.zip_cons_cons, trackAll, hu] at ht
          obtain ⟨⟨w2, acts2⟩, ht2, e2⟩ := Option.map_eq_some_iff.mp ht
          cases e2
          match k, hc with
          | 0, hc => cases hc; rfl
          | k + 1, hc =>
            have := h3 w2 acts2 (hst ▸ ht2) k c hc
            simpa using this
      simp only [List.map_cons, List.length_cons]
      rcases hf : s.file.update fmt (act.map (Pred.ofObj cfg.flt)) none with ⟨file, _ | _⟩
      · rcases ha : s.acc.update (some (act.map (Pred.ofObj cfg.flt))) with ⟨acc, _ | _⟩
        · refine main ⟨w, file, acc⟩ rfl fun l => .inr ⟨?_, ?_⟩
          · simp only [motFrames, hu, hf, ha]
          · simp only [motCamFrames, hmask]
            rw [show e.update cam.flow cam.g0 cam.call img (some mask) = m from rfl, hu]
            simp only [hf, ha]
        · refine main ⟨w, file, acc⟩ rfl fun l => .inl ⟨?_, ?_⟩
          · simp only [motFrames, hu, hf, ha]
          · simp only [motCamFrames, hmask]
            rw [show e.update cam.flow cam.g0 cam.call img (some mask) = m from rfl, hu]
            simp only [hf, ha]
      · refine main ⟨w, file, s.acc⟩ rfl fun l => .inl ⟨?_, ?_⟩
        · simp only [motFrames, hu, hf]
        · simp only [motCamFrames, hmask]
          rw [show e.update cam.flow cam.g0 cam.call img (some mask) = m from rfl, hu]
          simp only [hf]

/-- the transformations come from the getter -/
theorem outputs_mem {Mask : Type} {fl : Flow K Img Mask} {g0 : G}
    {call : G → Option (List (K × K)) → Option (List (K × K)) → Option (G × Bool × Option T)}
    (fs : List (Img × Option Mask)) : ∀ (s : MotionEstimator K Img Mask G) (t : T),
    some t ∈ s.outputs fl g0 call fs → ∃ g c p r, call g c p = some r ∧ r.2.2 = some t := by
  induction fs with
  | nil => intro s t h; cases h
  | cons f fs ih =>
    intro s t h
    rcases List.mem_cons.mp h with h | h
    · unfold MotionEstimator.update at h
      simp only at h
      have key : ∀ {g c p}, some t = (match call g c p with | some r => r | none => (g0, true, none)).2.2 →
          ∃ g c p r, call g c p = some r ∧ r.2.2 = some t := by
        intro g c p h
        cases e : call g c p with
        | none => rw [e] at h; cases h
        | some r => rw [e] at h; exact ⟨g, c, p, r, e, h.symm⟩
      split_ifs at h
      · exact key h
      · exact key h
    · exact ih _ t h

/-- **C107** The evaluation of a sequence is the one of C105 with what the motion estimator returns for the frames and
their masks. The mask of a frame is built from the boxes of its detections and from the estimates of the objects
returned for the frame before; for the first frame there are none of these. So everything proved in C105 (what is
written and compared, that all rows are different, gaps) holds for it. -/
theorem C107_sequence {cfg : Cfg K L D F X} (fmt : K → Str) (cam : MotCam K Img G T)
    (hcam : ∀ g c p r t, cam.call g c p = some r → r.2.2 = some t → KeepsBoth (fun _ : Unit => (2, 2)) (cam.ct t))
    (sortRows : List (List K) → List (List K)) (hs : SortsByFrame sortRows) (label : L) (extra : X) (g : Nat)
    (acc : Accum K) {v : CamSeq K Img} {n : Nat} (hv : CamOk v n) :
    ∃ masks v', Filmed cfg cam sortRows label extra g n v masks v' ∧ MotOk v' n ∧
      motCamSeq cfg fmt cam sortRows label extra g acc v = motSeq cfg fmt sortRows label extra g acc v' := by
  obtain ⟨m, hm, hw⟩ := hv.width
  have hp := C56_read_partial sortRows hs v.rows hv.rows m hm hw n
  let dets := seqDets sortRows v.rows n
  have hdl : dets.length = n := by simp [dets, seqDets]
  have hrl : (refsFrom 0 dets).length = n := by rw [refsFrom_length, hdl]
  let w : World K L D F X := seqWorld label extra g dets
  let cs := v.frames.zip (refsFrom 0 dets)
  have hc1 : cs.map (·.1) = v.frames := List.map_fst_zip (by rw [hv.frames, hrl])
  have hc2 : cs.map (·.2) = refsFrom 0 dets := List.map_snd_zip (by rw [hv.frames, hrl])
  have hcl : cs.length = n := by rw [← List.length_map (f := Prod.fst), hc1, hv.frames]
  obtain ⟨masks, h1, h2, h3⟩ := camFrames_eq (cfg := cfg) fmt cam (fun r => (motHeap label extra dets.flatten r).points) cs
    ⟨w, PredFile.init v.length, (acc.create v.path v.length).1⟩ (MotionEstimator.create cam.g0) []
    (Inv.initial ⟨rfl, rfl, rfl⟩) (fun _ => rfl)
  rw [hc1, hc2] at h2 h3
  rw [hcl] at h1
  let v' : MotSeq K := ⟨v.path, v.length, v.rows, camCts cam (MotionEstimator.create cam.g0) v.frames masks⟩
  have hcts : v'.cts.length = n := by
    simp [v', camCts, outputs_length, h1, hv.frames]
  refine ⟨masks, v', ⟨rfl, rfl, rfl, h1, rfl, ?_⟩, ⟨hv.rows, hv.width, hv.length, hv.pos, hcts, ?_⟩, ?_⟩
  · intro w' acts ht k img hk
    have hkn : k < n := by rw [← hv.frames]; exact (List.getElem?_eq_some_iff.mp hk).1
    have hr : (refsFrom 0 dets)[k]? = some ((refsFrom 0 dets)[k]'(by omega)) := List.getElem?_eq_getElem _
    have hck : cs[k]? = some (img, (refsFrom 0 dets)[k]'(by omega)) :=
      List.getElem?_zip_eq_some.mpr ⟨hk, hr⟩
    have := h3 w' acts ht k _ hck
    rw [this]
    have hspec := (refsFrom_spec label extra dets).1
    have hd : dets[k]? = some (dets[k]'(by omega)) := List.getElem?_eq_getElem _
    have e := congrArg (fun l => l[k]?) hspec
    simp only [List.getElem?_map, hr, hd, Option.map_some, Option.some.injEq] at e
    have e2 := congrArg (List.map fun d : Det K L X => d.points) e
    rw [List.map_map, List.map_map] at e2
    simp only [maskBoxes]
    rw [show (seqDets sortRows v.rows n)[k]? = _ from hd]
    rw [Option.getD_some]
    congr 1
    congr 1
  · intro c hc a p hp
    obtain ⟨t, ht, e⟩ := List.mem_map.mp hc
    cases t with
    | none => cases e
    | some t =>
      cases e
      obtain ⟨g, q, q', r, e1, e2⟩ := outputs_mem _ _ _ ht
      exact hcam g q q' r t e1 e2 a p hp
  · unfold motCamSeq motSeq
    rw [show v'.rows = v.rows from rfl, show v'.length = v.length from rfl, show v'.path = v.path from rfl, hv.length, hp]
    simp only
    have hcr : acc.create v.path (.int n) = ((acc.create v.path (.int n)).1, false) := rfl
    rw [hcr]
    simp only
    rw [hv.length] at h2
    exact congrArg (Option.map _) h2

/-- **C107** The same for all sequences: the evaluation with camera motion is one of C105. -/
theorem C107_evaluation {cfg : Cfg K L D F X} (fmt : K → Str) (cam : MotCam K Img G T)
    (hcam : ∀ g c p r t, cam.call g c p = some r → r.2.2 = some t → KeepsBoth (fun _ : Unit => (2, 2)) (cam.ct t))
    (sortRows : List (List K) → List (List K)) (hs : SortsByFrame sortRows) (label : L) (extra : X)
    (vs : List (CamSeq K Img × Nat)) (hv : ∀ p ∈ vs, CamOk p.1 p.2) (g : Nat) (acc : Accum K) :
    ∃ vs' : List (MotSeq K),
      List.Forall₂ (fun p v' => MotOk v' p.2 ∧ ∃ g masks, Filmed cfg cam sortRows label extra g p.2 p.1 masks v') vs vs' ∧
      motCamAll cfg fmt cam sortRows label extra g acc (vs.map (·.1)) = motAll cfg fmt sortRows label extra g acc vs' := by
  induction vs generalizing g acc with
  | nil => exact ⟨[], .nil, rfl⟩
  | cons p vs ih =>
    obtain ⟨masks, v', h1, h2, h3⟩ := C107_sequence (cfg := cfg) fmt cam hcam sortRows hs label extra g acc
      (hv p (List.mem_cons_self ..))
    have ih := ih fun q hq => hv q (List.mem_cons_of_mem _ hq)
    cases e : motSeq cfg fmt sortRows label extra g acc v' with
    | none =>
      obtain ⟨vs', i1, -⟩ := ih g acc
      refine ⟨v' :: vs', .cons ⟨h2, g, masks, h1⟩ i1, ?_⟩
      simp only [List.map_cons, motCamAll, motAll, h3, e]
    | some r =>
      obtain ⟨g', file, acc'⟩ := r
      obtain ⟨vs', i1, i2⟩ := ih g' acc'
      refine ⟨v' :: vs', .cons ⟨h2, g, masks, h1⟩ i1, ?_⟩
      simp only [List.map_cons, motCamAll, motAll, h3, e, i2]

end

section
variable [Field K] [LinearOrder K]

theorem pairs_four (f : K × K → K × K) (p : Pts K) (hp : HasShape (2, 2) p) :
    HasShape (2, 2) { p with data := unpairs ((pairs p.data).map f) } := by
  obtain ⟨h1, h2, h3⟩ := hp
  refine ⟨h1, h2, ?_⟩
  match hd : p.data, h3 with
  | [a, b, c, d], _ => rfl

/-- **C107** The transformations of the getter that the evaluation uses keep boxes: the hypothesis of `C107_sequence`
and `C107_evaluation` holds for `HomographyTransformationGetter`. -/
theorem C107_homography (thr : K)
    (find : List (K × K) → List (K × K) → Option (Matrix (Fin 3) (Fin 3) K × List Bool))
    (data : Option (Matrix (Fin 3) (Fin 3) K)) (curr prev : Option (List (K × K)))
    (r : Option (Matrix (Fin 3) (Fin 3) K) × Bool × Option (CoordTrans K)) (t : CoordTrans K)
    (h : homographyGetter thr find data curr prev = some r) (ht : r.2.2 = some t) :
    KeepsBoth (fun _ : Unit => (2, 2)) t := by
  have key : ∀ M : Matrix (Fin 3) (Fin 3) K, homography M = some t → KeepsBoth (fun _ : Unit => (2, 2)) t := by
    intro M hM
    unfold homography at hM
    split at hM
    · cases hM
    · cases hM
      exact fun a p hp => ⟨pairs_four _ p hp, pairs_four _ p hp⟩
  have few : ∀ r, (match data with
      | some m => (homography m).map fun t => (data, true, some t)
      | none => some (none, true, none)) = some r → r.2.2 = some t → KeepsBoth (fun _ : Unit => (2, 2)) t := by
    intro r h ht
    cases data with
    | none => cases h; cases ht
    | some m =>
      obtain ⟨t', h1, rfl⟩ := Option.map_eq_some_iff.mp h
      cases ht
      exact key m h1
  unfold homographyGetter at h
  simp only at h
  split at h
  · split at h
    · split at h
      · cases h
      · obtain ⟨t', h1, rfl⟩ := Option.map_eq_some_iff.mp h
        cases ht
        exact key _ h1
    · exact few r h ht
  · exact few r h ht

end

/-! ### Examples -/

/-- the points found are the pixels where the mask is 1; a frame is given by how much everything has moved to the
right -/
def pixelFlow : Flow ℚ ℤ (Image Bool) where
  corners _ m := m.map fun m => (List.range m.h).flatMap fun y : Nat =>
    ((List.range m.w).filter fun x => m.px y x).map fun x : Nat => ((x : ℚ), (y : ℚ))
  track prvs next ps := some (ps.map fun p => (p.1 + ((next - prvs : ℤ) : ℚ), p.2), ps.map fun _ => true)

theorem pixelFlow_respects : Respects pixelFlow := by
  intro img m l h p hp
  cases h
  obtain ⟨y, hy, hp⟩ := List.mem_flatMap.mp hp
  obtain ⟨x, hx, rfl⟩ := List.mem_map.mp hp
  obtain ⟨h1, h2⟩ := List.mem_filter.mp hx
  exact ⟨y, x, rfl, List.mem_range.mp hy, List.mem_range.mp h1, h2⟩

def pixelCam : MotCam ℚ ℤ (Option (ℚ × ℚ)) (ℚ × ℚ) where
  flow := pixelFlow
  g0 := none
  call := TransGetter.getter ⟨1, 9/10⟩
  ct v := translation [v.1, v.2]
  size _ := (4, 9)

theorem pixelCam_keeps (g : Option (ℚ × ℚ)) (c p : Option (List (ℚ × ℚ))) (r : Option (ℚ × ℚ) × Bool × Option (ℚ × ℚ))
    (t : ℚ × ℚ) (_ : pixelCam.call g c p = some r) (_ : r.2.2 = some t) :
    KeepsBoth (fun _ : Unit => (2, 2)) (pixelCam.ct t) := by
  intro a p hp
  exact ⟨⟨hp.1, hp.2.1, by simpa [pixelCam, translation] using hp.2.2⟩, hp.1, hp.2.1,
    by simpa [pixelCam, translation] using hp.2.2⟩

/-- Two boxes at the same places, seen by a camera that moves after the second frame. The second one is not detected in
frames 3 and 4. -/
def pixelSeq : CamSeq ℚ ℤ := ⟨"data/P".toList, .int 4,
  [[1, -1, 1, 0, 2, 2, 1], [1, -1, 5, 1, 2, 3, 1], [2, -1, 1, 0, 2, 2, 1], [2, -1, 5, 1, 2, 3, 1],
    [3, -1, 2, 0, 2, 2, 1], [4, -1, 3, 0, 2, 2, 1]], [0, 0, 1, 2]⟩

theorem pixelSeq_ok : CamOk pixelSeq 4 := ⟨by decide, ⟨7, by decide, by decide +kernel⟩, rfl, by decide, rfl⟩

/-- frame, id, corner and size of what is compared -/
def matRows : PredMat ℚ → List (Nat × Option ℤ × List ℚ)
  | .rows l => l.map fun r => (r.frame, r.id, [r.x, r.y, r.width, r.height])
  | _ => []

set_option synthInstance.maxSize 2000 in
/-- C107_sequence, C107_evaluation: the hypotheses hold, and this is what is compared: the estimate of the second box
moves with the picture, although it is not detected -/
example : SortsByFrame (K := ℚ) toySort ∧ CamOk pixelSeq 4 ∧
    ((motCamSeq properCfg (fun _ => []) pixelCam toySort 0 () 0 Accum.init pixelSeq).map
      fun r => (r.1, r.2.2.matrixes.map matRows)) =
    some (2, [[(2, some 1, [1, 0, 2, 2]), (2, some 2, [5, 1, 2, 3]), (3, some 1, [2, 0, 2, 2]),
      (3, some 2, [6, 1, 2, 3]), (4, some 1, [3, 0, 2, 2]), (4, some 2, [7, 1, 2, 3])]]) :=
  ⟨toySort_sorts, pixelSeq_ok, by decide +kernel⟩

/-- two frames with a box at the left in the first one -/
def pixelFrames : List (ℤ × Option (Image Bool)) :=
  [(0, some (buildMask (2, 3) [⟨2, 2, [(0 : ℚ), 0, 2, 2]⟩] [])), (1, some (buildMask (2, 3) ([] : List (Pts ℚ)) []))]

/-- C107_points: the hypotheses hold for the second frame; the points passed to the getter are those of the first frame
that are not in the box -/
example : Respects pixelFlow ∧ (∀ f ∈ pixelFrames, f.2 ≠ none) ∧
    (estStates pixelFlow none (TransGetter.getter ⟨1, 9/10⟩) (MotionEstimator.create none) pixelFrames).map
      (fun s => (s.grayPrvs, s.prevPts)) = [(none, none), (some 0, some [(2, 0), (2, 1)]), (some 0, some [(2, 0), (2, 1)])] ∧
    pixelFlow.sparse 1 0 (some [(2, 0), (2, 1)]) (pixelFrames.headD (0, none)).2 =
      some ([(3, 0), (3, 1)], [(2, 0), (2, 1)]) := by
  refine ⟨pixelFlow_respects, by simp [pixelFrames], by decide +kernel, by decide +kernel⟩

/-- C107_homography: there is such a call, with a transformation -/
example : ∃ r t, homographyGetter (9 / 10 : ℚ) (fun _ _ => some (1, [true])) none (some (List.replicate 4 (0, 0)))
    (some (List.replicate 4 (0, 0))) = some r ∧ r.2.2 = some t := by
  simp [homographyGetter, homography]

/-- **C107** (the negation, for the movement of the camera) The box of the detection is partly outside the picture, at
the left, and although `goodFeaturesToTrack` respects the mask, the movement is found from points in this box. -/
theorem C107_false_points :
    Respects pixelFlow ∧ Covers (⟨2, 2, [(-2 : ℚ), 0, 2, 2]⟩ : Pts ℚ) 0 0 ∧
    ∃ curr prev, pixelFlow.sparse 0 0 none (some (buildMask (5, 5) [⟨2, 2, [(-2 : ℚ), 0, 2, 2]⟩] [])) =
      some (curr, prev) ∧ ((0 : ℚ), (0 : ℚ)) ∈ prev := by
  refine ⟨pixelFlow_respects, C107_false_mask.1.1, _, _, rfl, by decide +kernel⟩

end Norfair.Props
