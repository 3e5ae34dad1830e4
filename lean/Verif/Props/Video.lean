import Verif.Model.Video
import Mathlib.Algebra.Order.Ring.Rat
import Mathlib.Data.Rat.Floor

/-!
C59: reading and writing of videos.
-/

namespace Norfair.Props

open Norfair

variable {Fr : Type}

/-- a sequence of events: the state at the end and the answers -/
def vrun (cap : Nat → Option Fr) (cfg : VideoCfg) (isdir : Str → Bool) (size : Fr → Nat × Nat) :
    VideoState Fr → List (VEvent Fr) → VideoState Fr × List (VAnswer Fr)
  | s, [] => (s, [])
  | s, e :: es =>
    let r := s.step cap cfg isdir size e
    let q := vrun cap cfg isdir size r.1 es
    (q.1, r.2 :: q.2)

/-- the frames among the answers -/
def framesOf (l : List (VAnswer Fr)) : List Fr :=
  l.filterMap fun | .frame f => some f | _ => none

/-- `ys` are the first frames of the capture, and the capture was released if and only if a read failed, which
was the read after them -/
structure ReadsOk (cap : Nat → Option Fr) (s : VideoState Fr) (ys : List Fr) : Prop where
  frames : ∀ i < ys.length, cap i = ys[i]?
  opened : s.captureOpen = true → s.frameCounter = ys.length
  closed : s.captureOpen = false → cap ys.length = none
  released : .releaseCapture ∈ s.log ↔ s.captureOpen = false

theorem advance_ok (cap : Nat → Option Fr) (s : VideoState Fr) (ys : List Fr) (h : ReadsOk cap s ys)
    (g : Nat) (b : Bool) :
    ReadsOk cap (s.advance cap g b).1 (ys ++ framesOf [(s.advance cap g b).2]) := by
  have hlog : ∀ b : Bool, (VEffect.releaseCapture : VEffect Fr) ∉ (if b then [VEffect.startBar] else []) := by
    intro b; cases b <;> simp
  unfold VideoState.advance
  cases ho : s.captureOpen with
  | true =>
    simp only [if_true]
    cases hc : cap s.frameCounter with
    | some f =>
      have hfc := h.opened ho
      refine ⟨?_, ?_, ?_, ?_⟩
      · intro i hi
        simp only [framesOf, List.filterMap_cons, List.filterMap_nil, List.length_append, List.length_cons,
          List.length_nil] at hi ⊢
        rcases Nat.lt_or_ge i ys.length with hlt | hge
        · rw [List.getElem?_append_left hlt]; exact h.frames i hlt
        · have : i = ys.length := by omega
          subst this
          simp [← hfc, hc]
      · intro _
        simp [framesOf, hfc]
      · intro hcl; cases hcl
      · simp only [List.mem_append]
        have := h.released
        rw [ho] at this
        simp [this, hlog]
    | none =>
      have hfc := h.opened ho
      refine ⟨?_, ?_, ?_, ?_⟩
      · simpa [framesOf] using h.frames
      · intro hcl; cases hcl
      · intro _; simpa [framesOf, ← hfc] using hc
      · simp
  | false =>
    simp only [Bool.false_eq_true, if_false]
    refine ⟨?_, ?_, ?_, ?_⟩
    · simpa [framesOf] using h.frames
    · intro hcl; cases hcl
    · intro _; simpa [framesOf] using h.closed ho
    · simp

theorem step_ok (cap : Nat → Option Fr) (cfg : VideoCfg) (isdir : Str → Bool) (size : Fr → Nat × Nat)
    (s : VideoState Fr) (ys : List Fr) (h : ReadsOk cap s ys) (e : VEvent Fr) :
    ReadsOk cap (s.step cap cfg isdir size e).1 (ys ++ framesOf [(s.step cap cfg isdir size e).2]) := by
  have same : ∀ (s' : VideoState Fr), s'.captureOpen = s.captureOpen → s'.frameCounter = s.frameCounter →
      (VEffect.releaseCapture ∈ s'.log ↔ VEffect.releaseCapture ∈ s.log) → ReadsOk cap s' ys := by
    intro s' h1 h2 h3
    exact ⟨h.frames, by rw [h1, h2]; exact h.opened, by rw [h1]; exact h.closed, by rw [h1, h3]; exact h.released⟩
  have hf : ∀ a : VAnswer Fr, (∀ f, a ≠ .frame f) → ys ++ framesOf [a] = ys := by
    intro a ha
    cases a with
    | frame f => exact absurd rfl (ha f)
    | unit | stop | raise => simp [framesOf]
  cases e with
  | iter => simpa [VideoState.step, framesOf] using same { s with gens := s.gens ++ [.fresh] } rfl rfl Iff.rfl
  | next g =>
    cases hg : s.gens[g]? with
    | none => simp only [VideoState.step, hg]; rw [hf _ (by simp)]; exact h
    | some q =>
      cases q with
      | fresh => simp only [VideoState.step, hg]; exact advance_ok cap s ys h g true
      | suspended => simp only [VideoState.step, hg]; exact advance_ok cap s ys h g false
      | finished => simp only [VideoState.step, hg]; rw [hf _ (by simp)]; exact h
  | close g =>
    cases hg : s.gens[g]? with
    | none => simp only [VideoState.step, hg]; rw [hf _ (by simp)]; exact h
    | some q =>
      cases q with
      | fresh => simp only [VideoState.step, hg]; rw [hf _ (by simp)]; exact same _ rfl rfl Iff.rfl
      | suspended => simp only [VideoState.step, hg]; rw [hf _ (by simp)]; exact same _ rfl rfl (by simp)
      | finished => simp only [VideoState.step, hg]; rw [hf _ (by simp)]; exact h
  | write f =>
    cases hw : s.hasWriter with
    | true => simp only [VideoState.step, hw, if_true]; rw [hf _ (by simp)]; exact same _ rfl rfl (by simp)
    | false =>
      cases hc : cfg.codecFourcc (cfg.outputFilePath isdir) with
      | none =>
        simp only [VideoState.step, hw, hc, Bool.false_eq_true, if_false]
        rw [hf _ (by simp)]; exact h
      | some c =>
        simp only [VideoState.step, hw, hc, Bool.false_eq_true, if_false]
        rw [hf _ (by simp)]; exact same _ rfl rfl (by simp)

theorem vrun_ok (cap : Nat → Option Fr) (cfg : VideoCfg) (isdir : Str → Bool) (size : Fr → Nat × Nat)
    (es : List (VEvent Fr)) : ∀ (s : VideoState Fr) (ys : List Fr), ReadsOk cap s ys →
    ReadsOk cap (vrun cap cfg isdir size s es).1 (ys ++ framesOf (vrun cap cfg isdir size s es).2) := by
  induction es with
  | nil => intro s ys h; simpa [vrun, framesOf] using h
  | cons e es ih =>
    intro s ys h
    have := ih _ _ (step_ok cap cfg isdir size s ys h e)
    rw [vrun]
    simp only
    have hc : framesOf ((s.step cap cfg isdir size e).2 :: (vrun cap cfg isdir size
        (s.step cap cfg isdir size e).1 es).2) = framesOf [(s.step cap cfg isdir size e).2] ++
        framesOf (vrun cap cfg isdir size (s.step cap cfg isdir size e).1 es).2 := by
      simp only [framesOf]
      rw [← List.filterMap_append]
      rfl
    rw [hc, ← List.append_assoc]
    exact this

/-- C59: Whatever a program does with a video (several loops, leaving them early, writing at any time), the
frames it gets, in order, are the first frames of the capture: none is skipped, repeated or out of order.
The capture is released if and only if a read failed, and this was the first read that failed. -/
theorem C59_frames (cap : Nat → Option Fr) (cfg : VideoCfg) (isdir : Str → Bool) (size : Fr → Nat × Nat)
    (es : List (VEvent Fr)) :
    let r := vrun cap cfg isdir size VideoState.init es
    (∀ i < (framesOf r.2).length, cap i = (framesOf r.2)[i]?) ∧
    (.releaseCapture ∈ r.1.log → cap (framesOf r.2).length = none) := by
  have := vrun_ok cap cfg isdir size es VideoState.init [] ⟨by simp, fun _ => rfl, by simp [VideoState.init],
    by simp [VideoState.init]⟩
  simp only [List.nil_append] at this
  exact ⟨this.frames, fun h => this.closed (this.released.mp h)⟩

/-! ### Writing -/

/-- opening the writer and writing frames -/
def writerLog (l : List (VEffect Fr)) : List (VEffect Fr) :=
  l.filter fun | .openWriter _ _ _ => true | .write _ => true | _ => false

/-- the frames that a program writes -/
def writesOf (es : List (VEvent Fr)) : List Fr := es.filterMap fun | .write f => some f | _ => none

/-- what the log of the writer should be -/
def writerSpec (path codec : Str) (size : Fr → Nat × Nat) : List Fr → List (VEffect Fr)
  | [] => []
  | f :: fs => .openWriter path codec (size f) :: (f :: fs).map .write

theorem writerLog_step (cap : Nat → Option Fr) (cfg : VideoCfg) (isdir : Str → Bool) (size : Fr → Nat × Nat)
    (codec : Str) (hc : cfg.codecFourcc (cfg.outputFilePath isdir) = some codec) (s : VideoState Fr)
    (e : VEvent Fr) (ws : List Fr) (h : writerLog s.log = writerSpec (cfg.outputFilePath isdir) codec size ws)
    (hw : s.hasWriter = true ↔ ws ≠ []) :
    writerLog (s.step cap cfg isdir size e).1.log =
      writerSpec (cfg.outputFilePath isdir) codec size (ws ++ writesOf [e]) ∧
    ((s.step cap cfg isdir size e).1.hasWriter = true ↔ ws ++ writesOf [e] ≠ []) := by
  have hadv : ∀ g b, writerLog (s.advance cap g b).1.log = writerLog s.log ∧
      (s.advance cap g b).1.hasWriter = s.hasWriter := by
    intro g b
    unfold VideoState.advance
    cases hq : (if s.captureOpen then cap s.frameCounter else none) with
    | some f =>
      simp only [hq]
      refine ⟨?_, trivial⟩; cases b <;> simp [writerLog]
    | none =>
      simp only [hq]
      refine ⟨?_, trivial⟩; cases b <;> cases s.hasWriter <;> simp [writerLog]
  cases e with
  | iter => exact ⟨by simpa [VideoState.step, writesOf] using h, by simpa [VideoState.step, writesOf] using hw⟩
  | next g =>
    have hn : writesOf [(VEvent.next g : VEvent Fr)] = [] := rfl
    rw [hn, List.append_nil]
    cases hg : s.gens[g]? with
    | none => simp only [VideoState.step, hg]; exact ⟨h, hw⟩
    | some q =>
      cases q with
      | fresh => simp only [VideoState.step, hg]; exact ⟨(hadv g true).1.trans h, by rw [(hadv g true).2]; exact hw⟩
      | suspended => simp only [VideoState.step, hg]; exact ⟨(hadv g false).1.trans h, by rw [(hadv g false).2]; exact hw⟩
      | finished => simp only [VideoState.step, hg]; exact ⟨h, hw⟩
  | close g =>
    have hn : writesOf [(VEvent.close g : VEvent Fr)] = [] := rfl
    rw [hn, List.append_nil]
    cases hg : s.gens[g]? with
    | none => simp only [VideoState.step, hg]; exact ⟨h, hw⟩
    | some q =>
      cases q with
      | fresh => simp only [VideoState.step, hg]; exact ⟨h, hw⟩
      | suspended => simp only [VideoState.step, hg]; exact ⟨by simpa [writerLog] using h, hw⟩
      | finished => simp only [VideoState.step, hg]; exact ⟨h, hw⟩
  | write f =>
    have hn : writesOf [(VEvent.write f : VEvent Fr)] = [f] := rfl
    rw [hn]
    cases hws : s.hasWriter with
    | true =>
      simp only [VideoState.step, hws, if_true]
      have hne := hw.mp hws
      cases ws with
      | nil => exact absurd rfl hne
      | cons w ws =>
        refine ⟨?_, by simp [hws]⟩
        have : writerLog (s.log ++ [VEffect.write f]) = writerLog s.log ++ [VEffect.write f] := by
          simp [writerLog]
        rw [this, h]
        simp [writerSpec]
    | false =>
      have hne : ws = [] := by
        by_contra hh
        have := hw.mpr hh
        rw [hws] at this
        cases this
      subst hne
      simp only [VideoState.step, hws, Bool.false_eq_true, if_false, hc]
      refine ⟨?_, by simp⟩
      have : writerLog (s.log ++ [VEffect.openWriter (cfg.outputFilePath isdir) codec (size f), VEffect.write f]) =
          writerLog s.log ++ [VEffect.openWriter (cfg.outputFilePath isdir) codec (size f), VEffect.write f] := by
        simp [writerLog]
      rw [this, h]
      rfl

/-- C59: Whatever a program does, the writer is opened once, by the first `write`, with the size of its frame,
the output path and its codec, and it gets exactly the frames written by the program, in order. -/
theorem C59_writer (cap : Nat → Option Fr) (cfg : VideoCfg) (isdir : Str → Bool) (size : Fr → Nat × Nat)
    (codec : Str) (hc : cfg.codecFourcc (cfg.outputFilePath isdir) = some codec) (es : List (VEvent Fr)) :
    writerLog (vrun cap cfg isdir size VideoState.init es).1.log =
      writerSpec (cfg.outputFilePath isdir) codec size (writesOf es) := by
  have key : ∀ (es : List (VEvent Fr)) (s : VideoState Fr) (ws : List Fr),
      writerLog s.log = writerSpec (cfg.outputFilePath isdir) codec size ws →
      (s.hasWriter = true ↔ ws ≠ []) → writerLog (vrun cap cfg isdir size s es).1.log =
        writerSpec (cfg.outputFilePath isdir) codec size (ws ++ writesOf es) := by
    intro es
    induction es with
    | nil => intro s ws h _; simpa [vrun, writesOf] using h
    | cons e es ih =>
      intro s ws h hw
      obtain ⟨h1, h2⟩ := writerLog_step cap cfg isdir size codec hc s e ws h hw
      have := ih _ _ h1 h2
      have he : writesOf (e :: es) = writesOf [e] ++ writesOf es := by
        simp only [writesOf]
        rw [← List.filterMap_append]
        rfl
      rw [he, ← List.append_assoc]
      exact this
  simpa using key es VideoState.init [] rfl (by simp [VideoState.init])

/-- C59: without a codec for the output path every `write` raises, and nothing is opened -/
theorem C59_no_codec (cap : Nat → Option Fr) (cfg : VideoCfg) (isdir : Str → Bool) (size : Fr → Nat × Nat)
    (hc : cfg.codecFourcc (cfg.outputFilePath isdir) = none) (s : VideoState Fr) (hs : s.hasWriter = false)
    (f : Fr) : s.step cap cfg isdir size (.write f) = (s, .raise) := by
  simp [VideoState.step, hs, hc]

/-! ### The usual loop -/

/-- `for frame in video:` with a body that writes the frames `body frame` -/
def videoLoop (cap : Nat → Option Fr) (cfg : VideoCfg) (isdir : Str → Bool) (size : Fr → Nat × Nat)
    (body : Fr → List Fr) (g : Nat) : Nat → VideoState Fr → VideoState Fr
  | 0, s => s
  | n + 1, s =>
    match s.step cap cfg isdir size (.next g) with
    | (s, .frame f) => videoLoop cap cfg isdir size body g n (vrun cap cfg isdir size s ((body f).map .write)).1
    | (s, _) => s

/-- what the loop does with the writer for one frame, given what was written before -/
def bodyLog (path codec : Str) (size : Fr → Nat × Nat) (open' : Bool) : List Fr → List (VEffect Fr)
  | [] => []
  | f :: fs => (if open' then [] else [.openWriter path codec (size f)]) ++ (f :: fs).map .write

/-- the log of a loop over these frames -/
def loopLog (path codec : Str) (size : Fr → Nat × Nat) (body : Fr → List Fr) : Bool → List Fr → List (VEffect Fr)
  | _, [] => []
  | o, f :: fs => .read :: bodyLog path codec size o (body f) ++
      loopLog path codec size body (o || !(body f).isEmpty) fs

theorem vrun_writes (cap : Nat → Option Fr) (cfg : VideoCfg) (isdir : Str → Bool) (size : Fr → Nat × Nat)
    (codec : Str) (hc : cfg.codecFourcc (cfg.outputFilePath isdir) = some codec) (fs : List Fr)
    (s : VideoState Fr) : (vrun cap cfg isdir size s (fs.map .write)).1 =
      { s with hasWriter := s.hasWriter || !fs.isEmpty,
               log := s.log ++ bodyLog (cfg.outputFilePath isdir) codec size s.hasWriter fs } := by
  have hopen : ∀ (fs : List Fr) (s : VideoState Fr), s.hasWriter = true →
      (vrun cap cfg isdir size s (fs.map .write)).1 = { s with log := s.log ++ fs.map .write } := by
    intro fs
    induction fs with
    | nil => intro s _; simp [vrun]
    | cons f fs ih =>
      intro s hs
      rw [List.map_cons, vrun]
      simp only
      have : s.step cap cfg isdir size (.write f) = ({ s with log := s.log ++ [.write f] }, .unit) := by
        simp [VideoState.step, hs]
      rw [this]
      simp only
      have e := ih { s with log := s.log ++ [.write f] } hs
      rw [e]
      simp
  cases hs : s.hasWriter with
  | true =>
    rw [hopen fs s hs]
    cases fs <;> simp [bodyLog, hs]
  | false =>
    cases fs with
    | nil => cases s; simp only at hs; subst hs; simp [vrun, bodyLog]
    | cons f fs =>
      rw [List.map_cons, vrun]
      simp only
      have : s.step cap cfg isdir size (.write f) = ({ s with hasWriter := true, log := s.log ++
          [.openWriter (cfg.outputFilePath isdir) codec (size f), .write f] }, .unit) := by
        simp [VideoState.step, hs, hc]
      rw [this]
      simp only
      have e := hopen fs { s with hasWriter := true, log := s.log ++
          [.openWriter (cfg.outputFilePath isdir) codec (size f), .write f] } rfl
      rw [e]
      simp [bodyLog]

/-- C59: The usual loop over a new video with the frames `fs`, all of it: each frame is read once, in order, what
the body writes for it is written, then the read after the last frame fails, the writer is released if one
was opened, and then the capture. -/
theorem C59_loop (cap : Nat → Option Fr) (cfg : VideoCfg) (isdir : Str → Bool) (size : Fr → Nat × Nat)
    (codec : Str) (hc : cfg.codecFourcc (cfg.outputFilePath isdir) = some codec) (body : Fr → List Fr)
    (fs : List Fr) (hfs : ∀ i < fs.length, cap i = fs[i]?) (hend : cap fs.length = none) (n : Nat)
    (hn : fs.length < n) :
    (videoLoop cap cfg isdir size body 0 n (VideoState.init.step cap cfg isdir size .iter).1).log =
      .startBar :: loopLog (cfg.outputFilePath isdir) codec size body false fs ++ [.read, .stopBar] ++
        (if fs.flatMap body = [] then [] else [.releaseWriter]) ++ [.releaseCapture, .destroyWindows] := by
  have key : ∀ (rest : List Fr) (k n : Nat) (s : VideoState Fr), fs.drop k = rest → k ≤ fs.length →
      s.captureOpen = true → s.frameCounter = k → s.gens = [.suspended] → rest.length < n →
      (videoLoop cap cfg isdir size body 0 n s).log = s.log ++
        loopLog (cfg.outputFilePath isdir) codec size body s.hasWriter rest ++ [.read, .stopBar] ++
          (if s.hasWriter = false ∧ rest.flatMap body = [] then [] else [.releaseWriter]) ++
            [.releaseCapture, .destroyWindows] := by
    intro rest
    induction rest with
    | nil =>
      intro k n s hd hk ho hfc hg hn
      have hkl : k = fs.length := by
        have := congrArg List.length hd
        simp at this
        omega
      cases n with
      | zero => simp at hn
      | succ n =>
        have hst : s.step cap cfg isdir size (.next 0) = s.advance cap 0 false := by
          simp [VideoState.step, hg]
        have hadv : s.advance cap 0 false = ({ s with
            frameCounter := s.frameCounter + 1
            captureOpen := false
            gens := s.gens.set 0 .finished
            log := s.log ++ [] ++ [.read] ++ [.stopBar] ++ (if s.hasWriter then [.releaseWriter] else []) ++
              [.releaseCapture, .destroyWindows] }, .stop) := by
          simp [VideoState.advance, ho, hfc, hkl, hend]
        rw [videoLoop, hst, hadv]
        cases s.hasWriter <;> simp [loopLog]
    | cons f rest ih =>
      intro k n s hd hk ho hfc hg hn
      cases n with
      | zero => simp at hn
      | succ n =>
        have hlt : k < fs.length := by
          have := congrArg List.length hd
          simp at this
          omega
        have hf : cap k = some f := by
          rw [hfs k hlt]
          have := congrArg List.head? hd
          simpa [List.head?_drop] using this
        have hst : s.step cap cfg isdir size (.next 0) = ({ s with
            frameCounter := s.frameCounter + 1
            gens := s.gens.set 0 .suspended
            log := s.log ++ [] ++ [.read] }, .frame f) := by
          simp [VideoState.step, hg, VideoState.advance, ho, hfc, hf]
        rw [videoLoop, hst]
        simp only
        have e := ih (k + 1) n { s with
            frameCounter := s.frameCounter + 1
            gens := s.gens.set 0 .suspended
            hasWriter := s.hasWriter || !(body f).isEmpty
            log := s.log ++ [] ++ [.read] ++ bodyLog (cfg.outputFilePath isdir) codec size s.hasWriter (body f) }
          (by rw [← List.drop_drop, hd]; rfl) hlt ho (by simp [hfc]) (by simp [hg]) (by simpa using hn)
        rw [vrun_writes cap cfg isdir size codec hc, e]
        simp only [loopLog, List.flatMap_cons]
        have hif : (if (s.hasWriter || !(body f).isEmpty) = false ∧ rest.flatMap body = [] then []
            else [(VEffect.releaseWriter : VEffect Fr)]) =
            if s.hasWriter = false ∧ body f ++ rest.flatMap body = [] then [] else [.releaseWriter] := by
          congr 1
          cases s.hasWriter <;> cases body f <;> simp
        rw [hif]
        simp
  -- the first step starts the progress bar
  cases n with
  | zero => simp at hn
  | succ n =>
    have hs0 : (VideoState.init.step cap cfg isdir size .iter).1 =
        (⟨0, true, false, [.fresh], []⟩ : VideoState Fr) := rfl
    rw [hs0]
    cases fs with
    | nil =>
      have hst : (⟨0, true, false, [.fresh], []⟩ : VideoState Fr).step cap cfg isdir size (.next 0) =
          (⟨1, false, false, [.finished], [.startBar, .read, .stopBar, .releaseCapture, .destroyWindows]⟩, .stop) := by
        have : cap 0 = none := hend
        simp [VideoState.step, VideoState.advance, this]
      rw [videoLoop, hst]
      simp [loopLog]
    | cons f rest =>
      have h0 : cap 0 = some f := by simpa using hfs 0 (by simp)
      have hst : (⟨0, true, false, [.fresh], []⟩ : VideoState Fr).step cap cfg isdir size (.next 0) =
          (⟨1, true, false, [.suspended], [.startBar, .read]⟩, .frame f) := by
        simp [VideoState.step, VideoState.advance, h0]
      rw [videoLoop, hst]
      simp only
      have e := key rest 1 n ⟨1, true, !(body f).isEmpty, [.suspended],
          [.startBar, .read] ++ bodyLog (cfg.outputFilePath isdir) codec size false (body f)⟩
        (by simp) (by simp) rfl rfl rfl (by simpa using hn)
      rw [vrun_writes cap cfg isdir size codec hc]
      simp only [Bool.false_or]
      rw [e]
      simp only [Bool.false_or, loopLog, List.flatMap_cons]
      have hif : (if (!(body f).isEmpty) = false ∧ rest.flatMap body = [] then []
          else [(VEffect.releaseWriter : VEffect Fr)]) =
          if body f ++ rest.flatMap body = [] then [] else [.releaseWriter] := by
        congr 1
        cases body f <;> simp
      rw [hif]
      simp

/-- C59: a program that leaves every loop before its end never releases the capture or the writer -/
theorem C59_break (cap : Nat → Option Fr) (cfg : VideoCfg) (isdir : Str → Bool) (size : Fr → Nat × Nat)
    (es : List (VEvent Fr)) (hcap : ∀ i, (cap i).isSome) :
    let r := vrun cap cfg isdir size VideoState.init es
    VEffect.releaseCapture ∉ r.1.log ∧ VEffect.releaseWriter ∉ r.1.log := by
  have key : ∀ (es : List (VEvent Fr)) (s : VideoState Fr), s.captureOpen = true →
      VEffect.releaseCapture ∉ s.log → VEffect.releaseWriter ∉ s.log →
      VEffect.releaseCapture ∉ (vrun cap cfg isdir size s es).1.log ∧
      VEffect.releaseWriter ∉ (vrun cap cfg isdir size s es).1.log := by
    intro es
    induction es with
    | nil => intro s _ h1 h2; exact ⟨h1, h2⟩
    | cons e es ih =>
      intro s ho h1 h2
      rw [vrun]
      simp only
      have hadv : ∀ g b, (s.advance cap g b).1.captureOpen = true ∧
          VEffect.releaseCapture ∉ (s.advance cap g b).1.log ∧
          VEffect.releaseWriter ∉ (s.advance cap g b).1.log := by
        intro g b
        obtain ⟨f, hf⟩ := Option.isSome_iff_exists.mp (hcap s.frameCounter)
        unfold VideoState.advance
        simp only [ho, if_true, hf]
        cases b <;> simp [h1, h2]
      cases e with
      | iter => exact ih _ ho h1 h2
      | next g =>
        simp only [VideoState.step]
        cases hg : s.gens[g]? with
        | none => exact ih _ ho h1 h2
        | some q =>
          cases q with
          | fresh => exact ih _ (hadv g true).1 (hadv g true).2.1 (hadv g true).2.2
          | suspended => exact ih _ (hadv g false).1 (hadv g false).2.1 (hadv g false).2.2
          | finished => exact ih _ ho h1 h2
      | close g =>
        simp only [VideoState.step]
        cases hg : s.gens[g]? with
        | none => exact ih _ ho h1 h2
        | some q =>
          cases q with
          | fresh => exact ih _ ho h1 h2
          | suspended => exact ih _ ho (by simpa using h1) (by simpa using h2)
          | finished => exact ih _ ho h1 h2
      | write f =>
        simp only [VideoState.step]
        cases hw : s.hasWriter with
        | true => simp only [if_true]; exact ih _ ho (by simpa using h1) (by simpa using h2)
        | false =>
          simp only [Bool.false_eq_true, if_false]
          cases cfg.codecFourcc (cfg.outputFilePath isdir) with
          | none => exact ih _ ho h1 h2
          | some c => exact ih _ ho (by simpa using h1) (by simpa using h2)
  exact key es VideoState.init rfl (by simp [VideoState.init]) (by simp [VideoState.init])

/-- C59: `Video` accepts exactly one of an integer `camera` and an `input_path` that is a file with frames;
without exactly one of the two arguments, or with a camera that is not an integer, it is a `ValueError`. -/
theorem C59_arguments (env : VideoEnv) (camera : Option CameraArg) (inputPath : Option Str) (out label : Str)
    (fourcc : Option Str) (ext : Str) :
    ((∃ r, videoInit env camera inputPath out label fourcc ext = .ok r) ↔
      (∃ n, camera = some (.int n) ∧ inputPath = none) ∨
      (camera = none ∧ ∃ p p', inputPath = some p ∧ p' = (if '~' ∈ p then env.expanduser p else p) ∧
        env.isfile p' = true ∧ env.frameCount p' ≠ 0)) ∧
    (videoInit env camera inputPath out label fourcc ext = .error .value ↔
      (camera.isSome = inputPath.isSome) ∨ ∃ c, camera = some c ∧ ∀ n, c ≠ .int n) := by
  cases camera with
  | none =>
    cases inputPath with
    | none => simp [videoInit]
    | some p =>
      simp only [videoInit]
      by_cases h1 : env.isfile (if '~' ∈ p then env.expanduser p else p) = true
      · by_cases h2 : env.frameCount (if '~' ∈ p then env.expanduser p else p) = 0
        · simp [h1, h2]
        · simp [h1, h2]
      · simp [h1]
  | some c =>
    cases inputPath with
    | none => cases c <;> simp [videoInit]
    | some p => simp [videoInit]

/-! ### Examples -/

/-- a video of two frames, which are numbers here -/
def toyCap (k : Nat) : Option Nat := if k < 2 then some (10 + k) else none

/-- written to a file in the folder `out` -/
def toyCfg : VideoCfg := ⟨none, some "/data/a.mp4".toList, "out".toList, none, "mp4".toList⟩

/-- C59_loop, C59_writer: hypotheses and the log -/
example : toyCfg.codecFourcc (toyCfg.outputFilePath fun _ => true) = some "mp4v".toList ∧
    (∀ i < [10, 11].length, toyCap i = [10, 11][i]?) ∧ toyCap [10, 11].length = none := by
  decide +kernel

example : (videoLoop toyCap toyCfg (fun _ => true) (fun _ => (640, 480)) (fun f => [f]) 0 5
      (VideoState.init.step toyCap toyCfg (fun _ => true) (fun _ => (640, 480)) .iter).1).log =
    [.startBar, .read, .openWriter "out/a_out.mp4".toList "mp4v".toList (640, 480), .write 10, .read, .write 11,
      .read, .stopBar, .releaseWriter, .releaseCapture, .destroyWindows] := by
  decide +kernel

/-- C59_frames: two loops over the same video, the first one left early; the second goes on -/
example : framesOf (vrun toyCap toyCfg (fun _ => true) (fun _ => (640, 480)) VideoState.init
    [.iter, .next 0, .close 0, .iter, .next 1, .next 1]).2 = [10, 11] := by
  decide +kernel

/-- C59: frames written after the loop are never finished: the writer is not released -/
theorem C59_write_after_loop :
    (vrun toyCap toyCfg (fun _ => true) (fun _ => (640, 480)) VideoState.init
      [.iter, .next 0, .next 0, .next 0, .write 10, .write 11]).1.log =
    [.startBar, .read, .read, .read, .stopBar, .releaseCapture, .destroyWindows,
      .openWriter "out/a_out.mp4".toList "mp4v".toList (640, 480), .write 10, .write 11] := by
  decide +kernel

/-- C59_no_codec: a folder that does not exist is taken for a file name without extension -/
example : toyCfg.codecFourcc (toyCfg.outputFilePath fun _ => false) = none := by decide +kernel

/-- C59_break: a camera that always has a frame -/
example : ∀ i : Nat, ((fun k => some k : Nat → Option Nat) i).isSome := fun _ => rfl

end Norfair.Props
