import Verif.Props.Memory

/-!
C96: the arrays of `FixedCamera`.
-/

namespace Norfair.Props

open Norfair

variable {K Px : Type}

section
variable [Field K] [LinearOrder K] [IsStrictOrderedRing K] [FloorRing K] [Zero Px]
set_option linter.unusedSectionVars false

/-- what a call of `adjust_frame` on the array `frame` has to do with the functional model, which has only the
contents of the arrays -/
structure CameraDrawn (m : Mem (Image Px)) (x : Mem (Image Px) × MemCamera K Px × Nat) (y : FixedCamera K Px) :
    Prop where
  /-- the returned array is the background -/
  shared : x.2.1.background = some x.2.2
  /-- it holds the picture of the functional model -/
  pic : y.background = some (x.1.pic x.2.2)
  scale : x.2.1.scale = y.scale
  att : x.2.1.att = y.att
  /-- it is a new array -/
  new : m.next ≤ x.2.2 ∧ x.2.2 < x.1.next
  /-- no array that existed before the call has changed -/
  old : ∀ b, b < m.next → x.1.pic b = m.pic b

/-- C96: one call of `adjust_frame` in memory, compared with the functional model: both raise, or the returned
array is new, is kept as the background, holds the picture of the functional model, and no array that existed
before has changed: neither the frame nor the pictures returned before. -/
theorem C96_call (m : Mem (Image Px)) (c : MemCamera K Px) (frame : Nat) (hf : frame < m.next)
    (ct : Option (CoordTrans K)) :
    Option.Rel (CameraDrawn m) (c.adjustFrame m frame ct)
      ((⟨c.scale, c.att, c.background.map m.pic⟩ : FixedCamera K Px).adjustFrame (m.pic frame) ct) := by
  unfold MemCamera.adjustFrame FixedCamera.adjustFrame
  cases FixedCamera.prepare (⟨c.scale, c.att, c.background.map m.pic⟩ : FixedCamera K Px) (m.pic frame) with
  | none => exact .none
  | some bg =>
    dsimp only
    have e1 : (m.new bg).1.pic (m.new bg).2 = bg := Mem.new_self m bg
    rw [e1, Mem.new_pic m bg (by omega)]
    cases FixedCamera.place bg (m.pic frame) ct with
    | none => exact .none
    | some b =>
      refine .some ⟨rfl, ?_, rfl, rfl, ⟨le_rfl, Nat.lt_succ_self _⟩, fun a ha => ?_⟩
      · exact congrArg some (Mem.set_self (m.new bg).1 m.next b).symm
      · exact (Mem.set_pic (m.new bg).1 m.next b (by omega)).trans (Mem.new_pic m bg (by omega))

/-- what matters to the camera: a frame is given to it, or the program writes a picture to the array that was
returned last -/
inductive CameraEvent (K Px : Type)
  | frame (f : Image Px) (ct : Option (CoordTrans K))
  | drawn (p : Image Px)

/-- the functional camera after such events; `none` if a call raises -/
def cameraEvents (c : FixedCamera K Px) (es : List (CameraEvent K Px)) : Option (FixedCamera K Px) :=
  es.foldlM (fun c e => match e with
    | .frame f ct => c.adjustFrame f ct
    | .drawn p => some { c with background := some p }) c

/-- A program that uses one `FixedCamera`. `known` are the arrays the program has: the ones it makes and the ones
`adjust_frame` returns; it may write to them whenever it wants. -/
inductive CameraProgram (scale : K) (att : Px → Px) :
    Mem (Image Px) → MemCamera K Px → List Nat → List (CameraEvent K Px) → Prop
  | start (m : Mem (Image Px)) (known : List Nat) (h : ∀ b ∈ known, b < m.next) :
    CameraProgram scale att m ⟨scale, att, none⟩ known []
  | make {m c known es} (p : Image Px) :
    CameraProgram scale att m c known es →
    CameraProgram scale att (m.new p).1 c ((m.new p).2 :: known) es
  | write {m c known es} (a : Nat) (p : Image Px) : a ∈ known → c.background ≠ some a →
    CameraProgram scale att m c known es →
    CameraProgram scale att (m.set a p) c known es
  | writeLast {m c known es} (a : Nat) (p : Image Px) : a ∈ known → c.background = some a →
    CameraProgram scale att m c known es →
    CameraProgram scale att (m.set a p) c known (es ++ [.drawn p])
  | adjust {m c known es m' c' out} (frame : Nat) (ct : Option (CoordTrans K)) : frame ∈ known →
    c.adjustFrame m frame ct = some (m', c', out) →
    CameraProgram scale att m c known es →
    CameraProgram scale att m' c' (out :: known) (es ++ [.frame (m.pic frame) ct])

theorem CameraProgram.inv {scale : K} {att : Px → Px} {m : Mem (Image Px)} {c : MemCamera K Px}
    {known : List Nat} {es : List (CameraEvent K Px)} (h : CameraProgram scale att m c known es) :
    (∀ b ∈ known, b < m.next) ∧ (∀ a, c.background = some a → a ∈ known) ∧
      cameraEvents (FixedCamera.create scale att) es = some ⟨c.scale, c.att, c.background.map m.pic⟩ := by
  induction h with
  | start m known hk => exact ⟨hk, by simp, rfl⟩
  | @make m c known es p _ ih =>
    obtain ⟨h1, h2, h3⟩ := ih
    refine ⟨?_, fun a ha => List.mem_cons_of_mem _ (h2 a ha), ?_⟩
    · intro b hb
      rcases List.mem_cons.mp hb with rfl | hb
      · exact Nat.lt_succ_self _
      · exact (h1 b hb).trans (Nat.lt_succ_self _)
    · rw [h3]
      cases hb : c.background with
      | none => rfl
      | some a =>
        simp only [Option.map_some]
        rw [Mem.new_pic m p (by have := h1 a (h2 a hb); omega)]
  | @write m c known es a p ha hne _ ih =>
    obtain ⟨h1, h2, h3⟩ := ih
    refine ⟨h1, h2, ?_⟩
    rw [h3]
    cases hb : c.background with
    | none => rfl
    | some a' =>
      simp only [Option.map_some]
      rw [Mem.set_pic m a p (fun e => hne (by rw [hb, e]))]
  | @writeLast m c known es a p ha hb _ ih =>
    obtain ⟨h1, h2, h3⟩ := ih
    refine ⟨h1, h2, ?_⟩
    unfold cameraEvents at h3 ⊢
    rw [List.foldlM_append, h3, hb]
    simp only [Option.map_some]
    rw [Mem.set_self]
    rfl
  | @adjust m c known es m' c' out frame ct hfr he _ ih =>
    obtain ⟨h1, h2, h3⟩ := ih
    have hc := C96_call m c frame (h1 frame hfr) ct
    rw [he] at hc
    unfold cameraEvents at h3 ⊢
    generalize hy : (⟨c.scale, c.att, c.background.map m.pic⟩ : FixedCamera K Px).adjustFrame (m.pic frame) ct = y
      at hc
    cases hc with
    | @some _ y hc =>
      obtain ⟨hs, hp, e1, e2, ⟨hn1, hn2⟩, hold⟩ := hc
      dsimp only at hs hp e1 e2 hn1 hn2 hold
      refine ⟨?_, ?_, ?_⟩
      · intro b hb
        rcases List.mem_cons.mp hb with rfl | hb
        · exact hn2
        · have := h1 b hb; omega
      · intro a ha
        rw [hs] at ha
        cases ha
        exact List.mem_cons_self
      · rw [List.foldlM_append, h3]
        show (FixedCamera.adjustFrame _ _ _ >>= fun c => some c) = _
        rw [hy, hs, e1, e2]
        simp only [Option.bind_eq_bind, Option.bind_some, Option.map_some]
        rw [← hp]

/-- C96: in every program the background is what the functional camera makes of the frames (with the pixels they
had when they were given) and of what the program drew on the array that was returned last. Nothing else the
program does with its arrays matters: neither drawing on frames afterwards nor on older results. -/
theorem C96_events (scale : K) (att : Px → Px) (m : Mem (Image Px)) (c : MemCamera K Px) (known : List Nat)
    (es : List (CameraEvent K Px)) (h : CameraProgram scale att m c known es) :
    cameraEvents (FixedCamera.create scale att) es = some ⟨scale, att, c.background.map m.pic⟩ := by
  have : c.scale = scale ∧ c.att = att := by
    induction h with
    | start => exact ⟨rfl, rfl⟩
    | make _ _ ih => exact ih
    | write _ _ _ _ _ ih => exact ih
    | writeLast _ _ _ _ _ ih => exact ih
    | @adjust m c known es m' c' out frame ct hfr he hprog ih =>
      have hc := C96_call m c frame (hprog.inv.1 frame hfr) ct
      rw [he] at hc
      obtain ⟨e1, e2⟩ : c'.scale = c.scale ∧ c'.att = c.att := by
        unfold MemCamera.adjustFrame at he
        split at he
        · cases he
        · dsimp only at he
          split at he
          · cases he
          · cases he; exact ⟨rfl, rfl⟩
      exact ⟨e1.trans ih.1, e2.trans ih.2⟩
  rw [h.inv.2.2, this.1, this.2]

/-- C96: a program that does not draw on the array returned last (for example because it draws on a copy) gets the
pictures of C49: the background is the one of the functional camera after the same frames. -/
theorem C96_careful (scale : K) (att : Px → Px) (m : Mem (Image Px)) (c : MemCamera K Px) (known : List Nat)
    (fs : List (Image Px × Option (CoordTrans K)))
    (h : CameraProgram scale att m c known (fs.map fun f => .frame f.1 f.2)) :
    (FixedCamera.create scale att).run fs = some ⟨scale, att, c.background.map m.pic⟩ := by
  rw [← C96_events scale att m c known _ h]
  clear h
  generalize FixedCamera.create scale att = c0
  induction fs generalizing c0 with
  | nil => rfl
  | cons f fs ih =>
    unfold FixedCamera.run cameraEvents
    simp only [List.map_cons, List.foldlM_cons]
    cases c0.adjustFrame f.1 f.2 with
    | none => rfl
    | some c1 => exact ih c1

/-- C96: what is drawn on the returned array stays: in the next picture it is still there, attenuated, wherever
the new frame does not cover it. -/
theorem C96_drawings_stay (m : Mem (Image Px)) (c : MemCamera K Px) (a : Nat) (hb : c.background = some a)
    (frame : Nat) (hf : frame < m.next) (v : K × K) :
    ∃ m' c' out oy ox, c.adjustFrame m frame (some (translation [v.1, v.2])) = some (m', c', out) ∧
      CornerAt (m.pic a).h (m.pic a).w (m.pic frame).h (m.pic frame).w v oy ox ∧
      ∀ y x, y < (m.pic a).h → x < (m.pic a).w → (∀ i j, ¬ PixelAt (m.pic frame) oy ox y x i j) →
        (m'.pic out).px y x = c.att ((m.pic a).px y x) := by
  obtain ⟨b, oy, ox, e, hc, hd⟩ := C49_next_frame (⟨c.scale, c.att, c.background.map m.pic⟩ : FixedCamera K Px)
    (m.pic a) (by rw [hb]; rfl) (m.pic frame) v
  have h := C96_call m c frame hf (some (translation [v.1, v.2]))
  rw [e] at h
  generalize hx : c.adjustFrame m frame (some (translation [v.1, v.2])) = x at h
  cases h with
  | @some x _ h =>
    obtain ⟨m', c', out⟩ := x
    refine ⟨m', c', out, oy, ox, rfl, hc, fun y x hy hx hn => ?_⟩
    have hp := h.pic
    simp only [Option.some.injEq] at hp
    rw [← hp]
    exact hd.outside y x (by rw [hd.h]; exact hy) (by rw [hd.w]; exact hx) hn

end

/-! ### Examples -/

/-- two arrays: a frame and a black picture of the size of the background -/
def cameraMem : Mem (Image ℕ) := ⟨2, fun a => if a = 0 then toyFrame else ⟨4, 6, fun _ _ => 0⟩⟩

/-- the camera of the examples -/
def toyCamera : MemCamera ℚ ℕ := ⟨2, fun n => n / 2, none⟩

/-- the pixels of an image -/
def imagePixels (b : Image ℕ) : List (List ℕ) :=
  (List.range b.h).map fun y => (List.range b.w).map fun x => b.px y x

/-- a frame is shown twice; in between the program draws the pixel `(0, 0)` of the returned picture, or does not -/
def twoFrames (draws : Bool) : Option (List (List ℕ)) :=
  (toyCamera.adjustFrame cameraMem 0 (some (translation [0, 0]))).bind fun (m, c, out) =>
    let m := if draws then m.set out ⟨4, 6, fun y x => if y = 0 ∧ x = 0 then 200 else (m.pic out).px y x⟩ else m
    (c.adjustFrame m 0 (some (translation [0, 0]))).map fun (m, _, out) => imagePixels (m.pic out)

/-- C96: the same frames and movements, but a drawing on the first result shows up in the second one -/
theorem C96_witness :
    twoFrames false = some [[0, 0, 0, 0, 0, 0], [0, 0, 1, 2, 3, 0], [0, 0, 11, 12, 13, 0], [0, 0, 0, 0, 0, 0]] ∧
    twoFrames true = some [[100, 0, 0, 0, 0, 0], [0, 0, 1, 2, 3, 0], [0, 0, 11, 12, 13, 0], [0, 0, 0, 0, 0, 0]] := by
  decide +kernel

/-- C96_events: there is a program that draws on the first result -/
example : ∃ m c known, CameraProgram (2 : ℚ) (fun n : ℕ => n / 2) m c known
    [.frame toyFrame (some (translation [0, 0])), .drawn ⟨1, 1, fun _ _ => 7⟩] := by
  have h : ∃ x, toyCamera.adjustFrame cameraMem 0 (some (translation [0, 0])) = some x := by
    rw [← Option.isSome_iff_exists]
    decide +kernel
  obtain ⟨⟨m, c, out⟩, h⟩ := h
  have h0 := CameraProgram.adjust 0 (some (translation [0, 0])) (List.mem_cons_self) h
    (CameraProgram.start (scale := (2 : ℚ)) (att := fun n : ℕ => n / 2) cameraMem [0, 1] (by decide))
  have hc := C96_call cameraMem toyCamera 0 (by decide) (some (translation [0, 0]))
  rw [h] at hc
  generalize (FixedCamera.adjustFrame _ _ _ : Option (FixedCamera ℚ ℕ)) = y at hc
  cases hc with
  | some hc => exact ⟨_, _, _, CameraProgram.writeLast out _ List.mem_cons_self hc.shared h0⟩

/-- C96_careful: there is a program that draws on its frame and on an older result only -/
example : ∃ m c known, CameraProgram (2 : ℚ) (fun n : ℕ => n / 2) m c known
    ([(toyFrame, some (translation [0, 0]))].map fun f => .frame f.1 f.2) ∧ m.pic 0 = ⟨1, 1, fun _ _ => 7⟩ := by
  have h : ∃ x, toyCamera.adjustFrame cameraMem 0 (some (translation [0, 0])) = some x := by
    rw [← Option.isSome_iff_exists]
    decide +kernel
  obtain ⟨⟨m, c, out⟩, h⟩ := h
  have h0 := CameraProgram.adjust 0 (some (translation [0, 0])) (List.mem_cons_self) h
    (CameraProgram.start (scale := (2 : ℚ)) (att := fun n : ℕ => n / 2) cameraMem [0, 1] (by decide))
  have hc := C96_call cameraMem toyCamera 0 (by decide) (some (translation [0, 0]))
  rw [h] at hc
  generalize (FixedCamera.adjustFrame _ _ _ : Option (FixedCamera ℚ ℕ)) = y at hc
  cases hc with
  | some hc =>
    have hne : c.background ≠ some 0 := by
      have h1 := hc.shared
      have h2 := hc.new.1
      dsimp only at h1 h2
      rw [h1]
      intro e
      cases e
      exact absurd h2 (by decide)
    exact ⟨_, _, _, CameraProgram.write 0 ⟨1, 1, fun _ _ => 7⟩ (by simp) hne h0, Mem.set_self _ _ _⟩

/-- C96_drawings_stay: the hypotheses hold after a first frame (see also `C96_witness`) -/
example : ∃ m c a, (toyCamera.adjustFrame cameraMem 0 (some (translation [0, 0]))) = some (m, c, a) ∧
    c.background = some a ∧ 0 < m.next := by
  have h : ∃ x, toyCamera.adjustFrame cameraMem 0 (some (translation [0, 0])) = some x := by
    rw [← Option.isSome_iff_exists]
    decide +kernel
  obtain ⟨⟨m, c, out⟩, h⟩ := h
  have hc := C96_call cameraMem toyCamera 0 (by decide) (some (translation [0, 0]))
  rw [h] at hc
  generalize (FixedCamera.adjustFrame _ _ _ : Option (FixedCamera ℚ ℕ)) = y at hc
  cases hc with
  | some hc => exact ⟨m, c, out, h, hc.shared, by have := hc.new.2; dsimp only at this; omega⟩

end Norfair.Props
