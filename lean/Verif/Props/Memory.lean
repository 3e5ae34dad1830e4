import Verif.Model.Memory
import Verif.Props.FixedCamera
import Verif.Props.Pixels

/-!
C95, C96: which arrays the drawing functions write to, and which ones they return.
-/

namespace Norfair.Props

variable {K H P Px : Type}

section mem

theorem Mem.new_pic (m : Mem P) (p : P) {b : Nat} (h : b ≠ m.next) : (m.new p).1.pic b = m.pic b :=
  Function.update_of_ne h _ _

theorem Mem.new_self (m : Mem P) (p : P) : (m.new p).1.pic m.next = p := Function.update_self _ _ _

theorem Mem.set_pic (m : Mem P) (a : Nat) (p : P) {b : Nat} (h : b ≠ a) : (m.set a p).pic b = m.pic b :=
  Function.update_of_ne h _ _

theorem Mem.set_self (m : Mem P) (a : Nat) (p : P) : (m.set a p).pic a = p := Function.update_self _ _ _

/-- from `m` to `m'` nothing but the array `a` changes, and no array is made -/
structure OnlyArray (a : Nat) (m m' : Mem P) : Prop where
  next : m'.next = m.next
  rest : ∀ b, b ≠ a → m'.pic b = m.pic b

theorem OnlyArray.refl (a : Nat) (m : Mem P) : OnlyArray a m m := ⟨rfl, fun _ _ => rfl⟩

theorem OnlyArray.trans {a : Nat} {m m' m'' : Mem P} (h : OnlyArray a m m') (h' : OnlyArray a m' m'') : OnlyArray a m m'' :=
  ⟨h'.next.trans h.next, fun b hb => (h'.rest b hb).trans (h.rest b hb)⟩

theorem OnlyArray.set (a : Nat) (m : Mem P) (p : P) : OnlyArray a m (m.set a p) :=
  ⟨rfl, fun _ hb => Mem.set_pic m a p hb⟩

end mem

section
variable [Field K] [LinearOrder K] [IsStrictOrderedRing K] [FloorRing K]
set_option linter.unusedSectionVars false

theorem texts_onArray (ras : Raster K) (a : Nat) (us : List (PutText K)) (m : Mem Pic) :
    (us.foldl (fun m u => m.set a (ras.write (m.pic a) u)) m).pic a = us.foldl ras.write (m.pic a) ∧
      OnlyArray a m (us.foldl (fun m u => m.set a (ras.write (m.pic a) u)) m) := by
  induction us generalizing m with
  | nil => exact ⟨rfl, OnlyArray.refl a m⟩
  | cons u us ih =>
    obtain ⟨h1, h2⟩ := ih (m.set a (ras.write (m.pic a) u))
    simp only [List.foldl_cons]
    exact ⟨by rw [h1, Mem.set_self], (OnlyArray.set a m _).trans h2⟩

/-- Drawings one after the other on an array change this array only, and make the picture of the functional
model. -/
theorem onArray_spec (ras : Raster K) (shape : List Nat) (m m' : Mem Pic) (a : Nat) (c : Canvas K)
    (h : c.onArray ras shape m a = some m') : m'.pic a = c.render ras shape (m.pic a) ∧ OnlyArray a m m' := by
  induction c generalizing m' with
  | base => cases h; exact ⟨rfl, OnlyArray.refl a m⟩
  | black => cases h
  | scaled c f => cases h
  | blend x y u v => cases h
  | circle c pos r t col ih =>
    simp only [Canvas.onArray, Option.map_eq_some_iff] at h
    obtain ⟨m1, e, rfl⟩ := h
    obtain ⟨h1, h2⟩ := ih m1 e
    exact ⟨by simp only [Mem.circle, Mem.set_self, Canvas.render, h1], h2.trans (OnlyArray.set a m1 _)⟩
  | line c p q t col ih =>
    simp only [Canvas.onArray, Option.map_eq_some_iff] at h
    obtain ⟨m1, e, rfl⟩ := h
    obtain ⟨h1, h2⟩ := ih m1 e
    exact ⟨by simp only [Mem.line, Mem.set_self, Canvas.render, h1], h2.trans (OnlyArray.set a m1 _)⟩
  | rectangle c p q t col ih =>
    simp only [Canvas.onArray, Option.map_eq_some_iff] at h
    obtain ⟨m1, e, rfl⟩ := h
    obtain ⟨h1, h2⟩ := ih m1 e
    exact ⟨by simp only [Mem.set_self, Canvas.render, h1], h2.trans (OnlyArray.set a m1 _)⟩
  | text c s pos col size t ih =>
    simp only [Canvas.onArray, Option.map_eq_some_iff] at h
    obtain ⟨m1, e, rfl⟩ := h
    obtain ⟨h1, h2⟩ := ih m1 e
    obtain ⟨h3, h4⟩ := texts_onArray ras a (drawerText shape s (ras.position pos) size col t) m1
    exact ⟨by rw [h3, h1]; rfl, h2.trans h4⟩

/-- a picture made by drawings one after the other on the frame -/
def InPlace (c : Canvas K) : Prop := ∀ (ras : Raster K) shape m a, ∃ m', c.onArray ras shape m a = some m'

theorem InPlace.base : InPlace (.base : Canvas K) := fun _ _ m _ => ⟨m, rfl⟩

theorem InPlace.circle {c : Canvas K} (h : InPlace c) (pos : List ℤ) (r t : ℤ) (col : Color) :
    InPlace (c.circle pos r t col) := fun ras shape m a => by
  obtain ⟨m1, e⟩ := h ras shape m a
  exact ⟨_, by simp only [Canvas.onArray, e]; rfl⟩

theorem InPlace.line {c : Canvas K} (h : InPlace c) (p q : List ℤ) (t : ℤ) (col : Color) :
    InPlace (c.line p q t col) := fun ras shape m a => by
  obtain ⟨m1, e⟩ := h ras shape m a
  exact ⟨_, by simp only [Canvas.onArray, e]; rfl⟩

theorem InPlace.rectangle {c : Canvas K} (h : InPlace c) (p q : List ℤ) (t : ℤ) (col : Color) :
    InPlace (c.rectangle p q t col) := fun ras shape m a => by
  obtain ⟨m1, e⟩ := h ras shape m a
  exact ⟨_, by simp only [Canvas.onArray, e]; rfl⟩

theorem InPlace.text {c : Canvas K} (h : InPlace c) (s : List Char) (pos : Option (List ℤ)) (col : Color)
    (size : Option K) (t : Option ℤ) : InPlace (c.text s pos col size t) := fun ras shape m a => by
  obtain ⟨m1, e⟩ := h ras shape m a
  exact ⟨_, by simp only [Canvas.onArray, e]; rfl⟩

theorem drawCircles_inPlace (hide : Bool) (r t : ℤ) (col : Color) (ps : List (List K × Bool)) (c : Canvas K)
    (h : InPlace c) : InPlace (drawCircles hide r t col ps c) := by
  unfold drawCircles
  induction ps generalizing c with
  | nil => exact h
  | cons p ps ih =>
    simp only [List.foldl_cons]
    split
    · exact ih _ (h.circle _ _ _ _)
    · exact ih _ h

theorem drawPointsLoop_inPlace (env : DrawEnv K H) (a : DrawPointsArgs K) (color : ColorLike) (r t : ℤ)
    (tc : Option Color) (k : Nat) (ds : List (Drawable K H)) (c c' : Canvas K) (h : InPlace c)
    (e : drawPointsLoop env a color r t tc k ds c = some c') : InPlace c' := by
  induction ds generalizing k c with
  | nil => cases e; exact h
  | cons d ds ih =>
    unfold drawPointsLoop at e
    split at e
    · exact ih _ _ h e
    · split at e
      · cases e
      · dsimp only at e
        refine ih _ _ ?_ e
        have h2 : ∀ col, InPlace (if a.drawPoints then
            drawCircles a.hideDeadPoints r t col (d.points.zip d.live) c else c) := by
          intro col; split
          · exact drawCircles_inPlace _ _ _ _ _ _ h
          · exact h
        split
        · exact (h2 _).text _ _ _ _ _
        · exact h2 _

theorem drawBoxesLoop_inPlace (env : DrawEnv K H) (a : DrawBoxesArgs K) (color : ColorLike) (t : ℤ)
    (tc : Option Color) (k : Nat) (ds : List (Drawable K H)) (c c' : Canvas K) (h : InPlace c)
    (e : drawBoxesLoop env a color t tc k ds c = some c') : InPlace c' := by
  induction ds generalizing k c with
  | nil => cases e; exact h
  | cons d ds ih =>
    unfold drawBoxesLoop at e
    split at e
    · cases e
    · dsimp only at e
      split at e
      · cases e
      · rename_i c1 e1
        have h1 : InPlace c1 := by
          split at e1
          · split at e1
            · cases e1; exact h.rectangle _ _ _ _
            · cases e1
          · cases e1; exact h
        split at e
        · cases e
        · rename_i c2 e2
          refine ih _ _ ?_ e
          split at e2
          · cases e2; exact h1
          · split at e2
            · cases e2; exact h1.text _ _ _ _ _
            · cases e2

/-- what it means that a picture is drawn in place: the array of the frame holds the picture afterwards, and no
other array changes or is made -/
def DrawnInPlace (ras : Raster K) (shape : List Nat) (c : Canvas K) : Prop :=
  ∀ (m : Mem Pic) (a : Nat), ∃ m', c.onArray ras shape m a = some m' ∧
    m'.pic a = c.render ras shape (m.pic a) ∧ OnlyArray a m m'

theorem InPlace.drawn {c : Canvas K} (h : InPlace c) (ras : Raster K) (shape : List Nat) :
    DrawnInPlace ras shape c := fun m a => by
  obtain ⟨m', e⟩ := h ras shape m a
  exact ⟨m', e, onArray_spec ras shape m m' a c e⟩

/-- C95: `draw_points` draws in place: the array it gets holds the picture afterwards, no other array changes
or is made. -/
theorem C95_draw_points (ras : Raster K) (env : DrawEnv K H) (shape : List Nat) (a : DrawPointsArgs K)
    (ds : Option (List (Drawable K H))) (c : Canvas K) (e : drawPoints env shape a ds = some (some c)) :
    DrawnInPlace ras shape c := by
  refine InPlace.drawn ?_ ras shape
  unfold drawPoints at e
  dsimp only at e
  split at e
  · cases e
  · split at e
    · cases e
    · simp only [Option.map_eq_some_iff, Option.some.injEq] at e
      obtain ⟨c', e, rfl⟩ := e
      exact drawPointsLoop_inPlace _ _ _ _ _ _ _ _ _ _ InPlace.base e

/-- C95: `draw_boxes` draws in place. -/
theorem C95_draw_boxes (ras : Raster K) (env : DrawEnv K H) (shape : List Nat) (a : DrawBoxesArgs K)
    (ds : Option (List (Drawable K H))) (c : Canvas K) (e : drawBoxes env shape a ds = some c) :
    DrawnInPlace ras shape c := by
  refine InPlace.drawn ?_ ras shape
  unfold drawBoxes at e
  dsimp only at e
  split at e
  · cases e; exact InPlace.base
  · split at e
    · cases e
    · exact drawBoxesLoop_inPlace _ _ _ _ _ _ _ _ _ InPlace.base e

/-- C95: `draw_absolute_grid` draws in place. -/
theorem C95_draw_grid (ras : Raster K) (shape : List Nat) (grid : List (K × K))
    (absToRel : Option (List (K × K) → List (K × K))) (h w : Nat) (r t : ℤ) (col : Color) :
    DrawnInPlace ras shape (drawAbsoluteGrid grid absToRel h w r t col) := by
  refine InPlace.drawn ?_ ras shape
  unfold drawAbsoluteGrid
  dsimp only
  generalize List.filter _ _ = ps
  have : ∀ c : Canvas K, InPlace c →
      InPlace (ps.foldl (fun c p => c.cross (truncInt p.1) (truncInt p.2) r t col) c) := by
    induction ps with
    | nil => exact fun c h => h
    | cons p ps ih =>
      intro c h
      exact ih _ ((h.line _ _ _ _).line _ _ _ _)
  exact this _ InPlace.base

/-! ### Paths -/

theorem memCircles_spec (ras : Raster K) (shape : List Nat) (fr : Pic) (a : Nat) (r t : ℤ) (col : Color)
    (ps : List (List K)) (m : Mem Pic) (c : Canvas K) (h : m.pic a = c.render ras shape fr) :
    (m.circles ras a r t col ps).pic a = (circlesAt r t col ps c).render ras shape fr ∧
      OnlyArray a m (m.circles ras a r t col ps) := by
  unfold Mem.circles circlesAt
  induction ps generalizing m c with
  | nil => exact ⟨h, OnlyArray.refl a m⟩
  | cons p ps ih =>
    simp only [List.foldl_cons]
    obtain ⟨h1, h2⟩ := ih (m.circle ras a (p.map truncInt) r t col) (c.circle (p.map truncInt) r t col)
      (by simp only [Mem.circle, Mem.set_self, Canvas.render, h])
    exact ⟨h1, (OnlyArray.set a m _).trans h2⟩

theorem memPathsLoop_spec (ras : Raster K) (shape : List Nat) (hash : H → ℤ) (pal : Palette)
    (get : List (List K) → List (List K)) (color : Option Color) (r t : ℤ) (a : Nat) (objs : List (PathObj K H))
    (m : Mem Pic) (c : Canvas K) (h : ∀ fr, m.pic a = c.render ras shape fr) :
    Option.Rel (fun m' c' => (∀ fr, m'.pic a = c'.render ras shape fr) ∧ OnlyArray a m m')
      (MemPaths.loop ras hash pal get color r t a objs m) (Paths.loop hash pal get color r t objs c) := by
  induction objs generalizing m c with
  | nil => exact .some ⟨h, OnlyArray.refl a m⟩
  | cons o os ih =>
    have key : ∀ col, Option.Rel (fun m' c' => (∀ fr, m'.pic a = c'.render ras shape fr) ∧ OnlyArray a m m')
        (MemPaths.loop ras hash pal get color r t a os (m.circles ras a r t col (get o.estimate)))
        (Paths.loop hash pal get color r t os (circlesAt r t col (get o.estimate) c)) := by
      intro col
      have h0 := memCircles_spec ras shape (fun _ _ => 0) a r t col (get o.estimate) m c (h _)
      have := ih (m.circles ras a r t col (get o.estimate)) (circlesAt r t col (get o.estimate) c)
        (fun fr => (memCircles_spec ras shape fr a r t col (get o.estimate) m c (h _)).1)
      revert this
      generalize MemPaths.loop ras hash pal get color r t a os _ = x
      generalize Paths.loop hash pal get color r t os _ = y
      intro hr
      cases hr with
      | none => exact .none
      | some hr => exact .some ⟨hr.1, h0.2.trans hr.2⟩
    unfold MemPaths.loop Paths.loop
    cases color with
    | some col => exact key col
    | none =>
      dsimp only
      cases pal.choose (o.id.map hash) with
      | none => exact .none
      | some col => exact key col

/-- the state of a drawer of paths in memory holds the state of the functional model: the mask is an array in
use with the pixels of the mask, which do not depend on a frame -/
structure PathsHeld (ras : Raster K) (shape : List Nat) (m : Mem Pic) (s : MemPaths) (sf : Paths K) : Prop where
  radius : s.radius = sf.radius
  thickness : s.thickness = sf.thickness
  mask : Option.Rel (fun a c => a < m.next ∧ ∀ fr, m.pic a = c.render ras shape fr) s.mask sf.mask

/-- what a call of `Paths.draw` on the array `frame` has to do with the call of the functional model -/
structure PathsDrawn (ras : Raster K) (shape : List Nat) (m : Mem Pic) (frame : Nat)
    (x : Mem Pic × MemPaths × Nat) (y : Paths K × Canvas K) : Prop where
  /-- the new state is the one of the functional model -/
  held : PathsHeld ras shape x.1 x.2.1 y.1
  /-- the returned array holds its picture -/
  pic : x.1.pic x.2.2 = y.2.render ras shape (m.pic frame)
  /-- no array that existed before the call has changed -/
  old : ∀ b, b < m.next → x.1.pic b = m.pic b
  /-- the returned array did not exist before -/
  new : m.next ≤ x.2.2 ∧ x.2.2 < x.1.next
  /-- nor did the mask, and it is a different array -/
  mask : ∃ a, x.2.1.mask = some a ∧ m.next ≤ a ∧ a ≠ x.2.2

/-- C95: one call of `Paths.draw` in memory, compared with the functional model: both raise, or the returned
array is new, holds the picture of the functional model, no array that existed before has changed (the frame is
not drawn on, earlier results are not drawn on), and the mask is neither returned nor an array that existed
before. -/
theorem C95_paths_call (ras : Raster K) (shape : List Nat) (hash : H → ℤ) (pal : Palette)
    (get : List (List K) → List (List K)) (color : Option Color) (att : K) (height : Nat) (m : Mem Pic)
    (s : MemPaths) (sf : Paths K) (hs : PathsHeld ras shape m s sf) (frame : Nat) (hf : frame < m.next)
    (objs : List (PathObj K H)) :
    Option.Rel (PathsDrawn ras shape m frame) (s.draw ras hash pal get color att height m frame objs)
      (sf.draw hash pal get color att height objs) := by
  obtain ⟨rad, thi, mask⟩ := s
  obtain ⟨radf, thif, maskf⟩ := sf
  obtain ⟨h1, h2, h3⟩ := hs
  dsimp only at h1 h2 h3
  subst h1 h2
  -- the rest of the call, once there is a mask
  have rest : ∀ (m1 : Mem Pic) (a : Nat) (c : Canvas K) (r t : Option ℤ), m.next ≤ m1.next →
      (∀ b, b < m.next → m1.pic b = m.pic b) → a < m1.next → (∀ fr, m1.pic a = c.render ras shape fr) →
      Option.Rel (PathsDrawn ras shape m frame)
        (match MemPaths.loop ras hash pal get color (r.getD 0) (t.getD 0) m1.next objs
            (m1.new fun p ch => (truncInt ((m1.pic a p ch : K) * att) % 256).toNat).1 with
          | none => none
          | some m => some ((m.blend m1.next frame (1 : K) 1).1, ⟨r, t, some m1.next⟩,
              (m.blend m1.next frame (1 : K) 1).2))
        (match Paths.loop hash pal get color (r.getD 0) (t.getD 0) objs (c.scaled att) with
          | none => none
          | some m => some (⟨r, t, some m⟩, m.blend .base 1 1)) := by
    intro m1 a c r t hn hold ha hc
    have hl := memPathsLoop_spec ras shape hash pal get color (r.getD 0) (t.getD 0) m1.next objs
      (m1.new fun p ch => (truncInt ((m1.pic a p ch : K) * att) % 256).toNat).1 (c.scaled att)
      (fun fr => by rw [Mem.new_self]; funext p ch; simp only [Canvas.render, hc fr])
    revert hl
    generalize MemPaths.loop ras hash pal get color _ _ _ objs _ = x
    generalize Paths.loop hash pal get color _ _ objs _ = y
    intro hr
    cases hr with
    | none => exact .none
    | @some m2 c2 hr =>
      obtain ⟨hp, ho⟩ := hr
      have hn2 : m2.next = m1.next + 1 := ho.next
      have hold2 : ∀ b, b < m.next → m2.pic b = m.pic b := fun b hb => by
        rw [ho.rest b (by omega), Mem.new_pic _ _ (by omega), hold b hb]
      refine .some ⟨⟨rfl, rfl, .some ⟨?_, fun fr => ?_⟩⟩, ?_, fun b hb => ?_, ⟨?_, ?_⟩, m1.next, rfl, hn, ?_⟩
      · show m1.next < m2.next + 1
        omega
      · show (m2.new _).1.pic m1.next = _
        rw [Mem.new_pic _ _ (by omega), hp fr]
      · show (m2.new _).1.pic m2.next = _
        rw [Mem.new_self]
        funext p ch
        simp only [Canvas.render, hp (m.pic frame), hold2 frame hf]
      · show (m2.new _).1.pic b = _
        rw [Mem.new_pic _ _ (by omega), hold2 b hb]
      · show m.next ≤ m2.next
        omega
      · show m2.next < m2.next + 1
        omega
      · show m1.next ≠ m2.next
        omega
  unfold MemPaths.draw Paths.draw
  cases h3 with
  | none =>
    exact rest (m.new fun _ _ => 0).1 m.next .black _ _ (Nat.le_succ _)
      (fun b hb => Mem.new_pic _ _ (by omega)) (Nat.lt_succ_self _) (fun fr => by rw [Mem.new_self]; rfl)
  | some h3 => exact rest m _ _ _ _ le_rfl (fun _ _ => rfl) h3.1 h3.2

/-- A program that uses one drawer `Paths` with frames of shape `shape` and height `height`. `known` are the
arrays the program has: the ones it makes and the ones `draw` returns; it may write to them whenever it wants.
`calls` are the objects given to `draw`, call by call. -/
inductive PathsProgram (ras : Raster K) (hash : H → ℤ) (pal : Palette) (get : List (List K) → List (List K))
    (color : Option Color) (att : K) (height : Nat) (radius thickness : Option ℤ) :
    Mem Pic → MemPaths → List Nat → List (List (PathObj K H)) → Prop
  | start (m : Mem Pic) (known : List Nat) (h : ∀ b ∈ known, b < m.next) :
    PathsProgram ras hash pal get color att height radius thickness m ⟨radius, thickness, none⟩ known []
  | make {m s known calls} (p : Pic) :
    PathsProgram ras hash pal get color att height radius thickness m s known calls →
    PathsProgram ras hash pal get color att height radius thickness (m.new p).1 s ((m.new p).2 :: known) calls
  | write {m s known calls} (a : Nat) (p : Pic) : a ∈ known →
    PathsProgram ras hash pal get color att height radius thickness m s known calls →
    PathsProgram ras hash pal get color att height radius thickness (m.set a p) s known calls
  | draw {m s known calls m' s' out} (frame : Nat) (objs : List (PathObj K H)) : frame ∈ known →
    s.draw ras hash pal get color att height m frame objs = some (m', s', out) →
    PathsProgram ras hash pal get color att height radius thickness m s known calls →
    PathsProgram ras hash pal get color att height radius thickness m' s' (out :: known) (calls ++ [objs])

/-- C95: whatever a program does with the frames it gives to `Paths.draw` and with the pictures it gets, the paths
are the ones of the functional model, which knows nothing of arrays: the mask is never an array the program can
write to, and its pixels only depend on the objects drawn so far. -/
theorem C95_paths_private (ras : Raster K) (shape : List Nat) (hash : H → ℤ) (pal : Palette)
    (get : List (List K) → List (List K)) (color : Option Color) (att : K) (height : Nat)
    (radius thickness : Option ℤ) (m : Mem Pic) (s : MemPaths) (known : List Nat)
    (calls : List (List (PathObj K H)))
    (h : PathsProgram ras hash pal get color att height radius thickness m s known calls) :
    (∀ b ∈ known, b < m.next) ∧ (∀ b ∈ known, s.mask ≠ some b) ∧
      ∃ sf, calls.foldlM (fun sf objs => (Paths.draw hash pal get color att height sf objs).map (·.1))
          ⟨radius, thickness, none⟩ = some sf ∧ PathsHeld ras shape m s sf := by
  induction h with
  | start m known hk =>
    exact ⟨hk, by simp, _, rfl, rfl, rfl, .none⟩
  | @make m s known calls p _ ih =>
    obtain ⟨h1, h2, sf, e, hh⟩ := ih
    refine ⟨?_, ?_, sf, e, hh.radius, hh.thickness, ?_⟩
    · intro b hb
      rcases List.mem_cons.mp hb with rfl | hb
      · exact Nat.lt_succ_self _
      · exact (h1 b hb).trans (Nat.lt_succ_self _)
    · intro b hb
      rcases List.mem_cons.mp hb with rfl | hb
      · intro e
        have := hh.mask
        rw [e] at this
        generalize sf.mask = y at this
        cases this with
        | some h => exact absurd h.1 (lt_irrefl _)
      · exact h2 b hb
    · have := hh.mask
      revert this
      generalize s.mask = x
      generalize sf.mask = y
      intro hr
      cases hr with
      | none => exact .none
      | some hr =>
        exact .some ⟨hr.1.trans (Nat.lt_succ_self _), fun fr => (Mem.new_pic _ _ (by omega)).trans (hr.2 fr)⟩
  | @write m s known calls a p ha _ ih =>
    obtain ⟨h1, h2, sf, e, hh⟩ := ih
    refine ⟨h1, h2, sf, e, hh.radius, hh.thickness, ?_⟩
    have hm := hh.mask
    have h2a := h2 a ha
    revert hm h2a
    generalize s.mask = x
    generalize sf.mask = y
    intro hr h2a
    cases hr with
    | none => exact .none
    | @some b c hr =>
      exact .some ⟨hr.1, fun fr => (Mem.set_pic _ _ _ (fun e => h2a (by rw [e]))).trans (hr.2 fr)⟩
  | @draw m s known calls m' s' out frame objs hfr hd _ ih =>
    obtain ⟨h1, h2, sf, e, hh⟩ := ih
    have hc := C95_paths_call ras shape hash pal get color att height m s sf hh frame (h1 frame hfr) objs
    rw [hd] at hc
    generalize hy : sf.draw hash pal get color att height objs = y at hc
    cases hc with
    | @some _ y hc =>
      obtain ⟨held, pic, old, ⟨n1, n2⟩, a, ea, ha, hne⟩ := hc
      dsimp only at held pic old n1 n2 ea hne
      refine ⟨?_, ?_, y.1, ?_, held⟩
      · intro b hb
        rcases List.mem_cons.mp hb with rfl | hb
        · exact n2
        · have := h1 b hb; omega
      · intro b hb eb
        rw [ea] at eb
        cases eb
        rcases List.mem_cons.mp hb with rfl | hb
        · exact hne rfl
        · have := h1 _ hb; omega
      · rw [List.foldlM_append, e]
        simp [List.foldlM, hy]

/-- C95: each picture that such a program gets from `draw` is the one of the functional model on the pixels that
the frame has at the time of the call, and the call changes none of the arrays of the program. -/
theorem C95_paths_pictures (ras : Raster K) (shape : List Nat) (hash : H → ℤ) (pal : Palette)
    (get : List (List K) → List (List K)) (color : Option Color) (att : K) (height : Nat)
    (radius thickness : Option ℤ) (m : Mem Pic) (s : MemPaths) (known : List Nat)
    (calls : List (List (PathObj K H)))
    (h : PathsProgram ras hash pal get color att height radius thickness m s known calls)
    (frame : Nat) (hf : frame ∈ known) (objs : List (PathObj K H)) (m' : Mem Pic) (s' : MemPaths) (out : Nat)
    (hd : s.draw ras hash pal get color att height m frame objs = some (m', s', out)) :
    (∃ sf sf' c, calls.foldlM (fun sf objs => (Paths.draw hash pal get color att height sf objs).map (·.1))
        ⟨radius, thickness, none⟩ = some sf ∧ sf.draw hash pal get color att height objs = some (sf', c) ∧
        m'.pic out = c.render ras shape (m.pic frame)) ∧
      out ∉ known ∧ ∀ b ∈ known, m'.pic b = m.pic b := by
  obtain ⟨h1, h2, sf, e, hh⟩ := C95_paths_private ras shape hash pal get color att height radius thickness m s
    known calls h
  have hc := C95_paths_call ras shape hash pal get color att height m s sf hh frame (h1 frame hf) objs
  rw [hd] at hc
  generalize hy : sf.draw hash pal get color att height objs = y at hc
  cases hc with
  | @some _ y hc =>
    exact ⟨⟨sf, y.1, y.2, e, hy, hc.pic⟩, fun hk => absurd (h1 _ hk) (not_lt.mpr hc.new.1),
      fun b hb => hc.old b (h1 b hb)⟩

/-! ### AbsolutePaths -/

theorem memLines_spec (ras : Raster K) (shape : List Nat) (fr : Pic) (a : Nat) (t : ℤ) (col : Color)
    (last ps : List (List K)) (m : Mem Pic) (c : Canvas K) (h : m.pic a = c.render ras shape fr) :
    Option.Rel (fun m' c' => m'.pic a = c'.render ras shape fr ∧ OnlyArray a m m')
      (m.pathLines ras a t col last ps) (pathLines t col last ps c) := by
  induction ps generalizing last m c with
  | nil => cases last <;> exact .some ⟨h, OnlyArray.refl a m⟩
  | cons p ps ih =>
    cases last with
    | nil => exact .none
    | cons l last =>
      have := ih last (m.line ras a (l.map truncInt) (p.map truncInt) t col)
        (c.line (l.map truncInt) (p.map truncInt) t col)
        (by simp only [Mem.line, Mem.set_self, Canvas.render, h])
      unfold Mem.pathLines pathLines
      revert this
      generalize Mem.pathLines ras a t col last ps _ = x
      generalize pathLines t col last ps _ = y
      intro hr
      cases hr with
      | none => exact .none
      | some hr => exact .some ⟨hr.1, (OnlyArray.set a m _).trans hr.2⟩

/-- what the path of one object does to the arrays -/
structure StepsDrawn (ras : Raster K) (shape : List Nat) (fr : Pic) (n : Nat) (m : Mem Pic) (frame : Nat)
    (x : Mem Pic × Nat) (c : Canvas K) : Prop where
  pic : x.1.pic x.2 = c.render ras shape fr
  next : m.next ≤ x.1.next
  used : x.2 < x.1.next
  old : ∀ b, b < m.next → x.1.pic b = m.pic b
  same : n = 0 → x = (m, frame)
  other : n ≠ 0 → m.next ≤ x.2

theorem memSteps_spec (ras : Raster K) (shape : List Nat) (fr : Pic) (alphas : List K)
    (f : List (List K) → List (List K)) (t : ℤ) (col : Color) (i : Nat) (last : List (List K))
    (steps : List (List (List K))) (m : Mem Pic) (frame : Nat) (c : Canvas K) (hf : frame < m.next)
    (h : m.pic frame = c.render ras shape fr) :
    Option.Rel (StepsDrawn ras shape fr steps.length m frame)
      (m.pathSteps ras alphas f t col i last steps frame) (pathSteps alphas f t col i last steps c) := by
  induction steps generalizing i last m frame c with
  | nil => exact .some ⟨h, le_rfl, hf, fun _ _ => rfl, fun _ => rfl, fun h => absurd rfl h⟩
  | cons p ps ih =>
    have hl := memLines_spec ras shape fr m.next t col (f last) (f p) (m.new (m.pic frame)).1 c
      (by rw [Mem.new_self, h])
    have e2 : (m.new (m.pic frame)).2 = m.next := rfl
    unfold Mem.pathSteps pathSteps
    dsimp only
    rw [e2]
    revert hl
    generalize Mem.pathLines ras m.next t col (f last) (f p) _ = x
    generalize pathLines t col (f last) (f p) c = y
    intro hr
    cases hr with
    | none => exact .none
    | @some m1 overlay hr =>
      obtain ⟨hp, ho⟩ := hr
      dsimp only
      cases alphas[i]? with
      | none => exact .none
      | some al =>
        dsimp only
        have hn : m1.next = m.next + 1 := ho.next
        have hold : ∀ b, b < m.next → m1.pic b = m.pic b := fun b hb => by
          rw [ho.rest b (by omega), Mem.new_pic _ _ (by omega)]
        have hb1 : (m1.blend m.next frame al (1 - al)).1.pic m1.next =
            (overlay.blend c al (1 - al)).render ras shape fr := by
          unfold Mem.blend
          rw [Mem.new_self]
          funext p ch
          simp only [Canvas.render, hp, hold frame hf, h]
        have hb2 : ∀ b, b < m1.next → (m1.blend m.next frame al (1 - al)).1.pic b = m1.pic b := fun b hb =>
          Mem.new_pic _ _ (by omega)
        have hb3 : (m1.blend m.next frame al (1 - al)).1.next = m1.next + 1 := rfl
        have := ih (i + 1) p (m1.blend m.next frame al (1 - al)).1 m1.next (overlay.blend c al (1 - al))
          (by omega) hb1
        have e3 : (m1.blend m.next frame al (1 - al)).2 = m1.next := rfl
        rw [e3]
        revert this
        generalize Mem.pathSteps ras alphas f t col (i + 1) p ps _ _ = x
        generalize pathSteps alphas f t col (i + 1) p ps _ = y
        intro hr
        cases hr with
        | none => exact .none
        | @some x c' hr =>
          refine .some ⟨hr.pic, ?_, hr.used, ?_, fun h => absurd h (by simp), fun _ => ?_⟩
          · have := hr.next; omega
          · intro b hb
            rw [hr.old b (by omega), hb2 b (by omega), hold b hb]
          · by_cases hz : ps.length = 0
            · rw [hr.same hz]; show m.next ≤ m1.next; omega
            · have := hr.other hz; omega

variable [DecidableEq H]

/-- what a call of `AbsolutePaths.draw` on the array `frame` has to do with the functional model: the picture in
the returned array; only the array `frame` and new ones are written to; the returned array is `frame` or new -/
structure AbsDrawn (ras : Raster K) (shape : List Nat) (fr : Pic) (m : Mem Pic) (frame : Nat) (m' : Mem Pic)
    (out : Nat) (c : Canvas K) : Prop where
  pic : m'.pic out = c.render ras shape fr
  next : m.next ≤ m'.next
  used : out < m'.next
  old : ∀ b, b < m.next → b ≠ frame → m'.pic b = m.pic b
  out : out = frame ∨ m.next ≤ out

theorem memAbsLoop_spec (ras : Raster K) (shape : List Nat) (fr : Pic) (hash : H → ℤ) (pal : Palette)
    (get : List (List K) → List (List K)) (color : Option Color) (n : Nat)
    (f : Option (List (List K) → List (List K))) (r t : ℤ) (objs : List (PathObj K H))
    (past : Option H → List (List (List K))) (m : Mem Pic) (frame : Nat) (c : Canvas K) (hf : frame < m.next)
    (h : m.pic frame = c.render ras shape fr) :
    Option.Rel (fun x y => x.1 = y.1 ∧ AbsDrawn ras shape fr m frame x.2.1 x.2.2 y.2)
      (m.absLoop ras hash pal get color n f r t objs past frame)
      (AbsPaths.loop hash pal get color n f r t objs past c) := by
  induction objs generalizing past m frame c with
  | nil => exact .some ⟨rfl, h, le_rfl, hf, fun _ _ _ => rfl, .inl rfl⟩
  | cons o os ih =>
    cases f with
    | none =>
      unfold Mem.absLoop AbsPaths.loop
      cases o.live.any (·) with
      | false => exact ih past m frame c hf h
      | true =>
        simp only [Bool.not_true, Bool.false_eq_true, if_false]
        cases color with
        | some col => exact .none
        | none =>
          dsimp only
          cases pal.choose (o.id.map hash) <;> exact .none
    | some f =>
      have key : ∀ col, Option.Rel (fun x y => x.1 = y.1 ∧ AbsDrawn ras shape fr m frame x.2.1 x.2.2 y.2)
          (match (m.circles ras frame r t col (f (get o.absolute))).pathSteps ras (pathAlphas n) f t col 0
              (get o.absolute) (past o.id) frame with
            | none => none
            | some (m, frame) => m.absLoop ras hash pal get color n (some f) r t os
                (Function.update past o.id ((get o.absolute :: past o.id).take n)) frame)
          (match pathSteps (pathAlphas n) f t col 0 (get o.absolute) (past o.id)
              (circlesAt r t col (f (get o.absolute)) c) with
            | none => none
            | some c => AbsPaths.loop hash pal get color n (some f) r t os
                (Function.update past o.id ((get o.absolute :: past o.id).take n)) c) := by
        intro col
        obtain ⟨h1, h2⟩ := memCircles_spec ras shape fr frame r t col (f (get o.absolute)) m c h
        have hs := memSteps_spec ras shape fr (pathAlphas n) f t col 0 (get o.absolute) (past o.id)
          (m.circles ras frame r t col (f (get o.absolute))) frame
          (circlesAt r t col (f (get o.absolute)) c) (by rw [h2.next]; exact hf) h1
        revert hs
        generalize Mem.pathSteps ras (pathAlphas n) f t col 0 (get o.absolute) (past o.id) _ _ = x
        generalize pathSteps (pathAlphas n) f t col 0 (get o.absolute) (past o.id) _ = y
        intro hr
        cases hr with
        | none => exact .none
        | @some x c1 hr =>
          obtain ⟨m1, g⟩ := x
          have hg : g = frame ∨ m.next ≤ g := by
            by_cases hz : (past o.id).length = 0
            · left; have := hr.same hz; cases this; rfl
            · right; have := hr.other hz; rw [h2.next] at this; exact this
          have hn := hr.next
          rw [h2.next] at hn
          have hl := ih (Function.update past o.id ((get o.absolute :: past o.id).take n)) m1 g c1 hr.used hr.pic
          dsimp only
          revert hl
          generalize Mem.absLoop ras hash pal get color n _ r t os _ m1 g = x
          generalize AbsPaths.loop hash pal get color n _ r t os _ c1 = y
          intro hl
          cases hl with
          | none => exact .none
          | some hl =>
            obtain ⟨e, hl⟩ := hl
            refine .some ⟨e, hl.pic, hn.trans hl.next, hl.used, ?_, ?_⟩
            · intro b hb hbf
              rw [hl.old b (lt_of_lt_of_le hb hn) (by rcases hg with rfl | hg; exacts [hbf, by omega]),
                hr.old b (by rw [h2.next]; exact hb), h2.rest b hbf]
            · rcases hl.out with e | e
              · rw [e]; exact hg
              · exact .inr (hn.trans e)
      unfold Mem.absLoop AbsPaths.loop
      cases o.live.any (·) with
      | false => exact ih past m frame c hf h
      | true =>
        simp only [Bool.not_true, Bool.false_eq_true, if_false]
        cases color with
        | some col => exact key col
        | none =>
          dsimp only
          cases pal.choose (o.id.map hash) with
          | none => exact .none
          | some col => exact key col

/-- C95: one call of `AbsolutePaths.draw` in memory, compared with the functional model: both raise, or the
returned array holds the picture of the functional model on the pixels that the frame had at first, the new state
is the same, no array but the given frame has changed, and the returned array is this frame or a new one. -/
theorem C95_absolute_paths_call (ras : Raster K) (shape : List Nat) (hash : H → ℤ) (pal : Palette)
    (get : List (List K) → List (List K)) (color : Option Color) (n height : Nat) (m : Mem Pic)
    (s : AbsPaths K H) (frame : Nat) (hf : frame < m.next) (objs : List (PathObj K H))
    (f : Option (List (List K) → List (List K))) :
    Option.Rel (fun x y => x.2.1 = y.1 ∧ AbsDrawn ras shape (m.pic frame) m frame x.1 x.2.2 y.2)
      (m.absDraw ras hash pal get color n height s frame objs f)
      (s.draw hash pal get color n height objs f) := by
  unfold Mem.absDraw AbsPaths.draw
  dsimp only
  have := memAbsLoop_spec ras shape (m.pic frame) hash pal get color n f
    (s.radius.getD (truncInt (max ((height : K) / 100 * (7 / 10)) 1)))
    (s.thickness.getD (truncInt (max ((height : K) / 100 / 7) 1))) objs s.past m frame .base hf rfl
  revert this
  generalize Mem.absLoop ras hash pal get color n f _ _ objs s.past m frame = x
  generalize AbsPaths.loop hash pal get color n f _ _ objs s.past _ = y
  intro hr
  cases hr with
  | none => exact .none
  | @some x y hr =>
    obtain ⟨p, m', out⟩ := x
    obtain ⟨p', c⟩ := y
    obtain ⟨e, hr⟩ := hr
    dsimp only at e
    subst e
    exact .some ⟨rfl, hr⟩

/-- the circles that `AbsolutePaths.draw` draws for the objects with live points, without their paths -/
def ownCircles (hash : H → ℤ) (pal : Palette) (get : List (List K) → List (List K)) (color : Option Color)
    (f : List (List K) → List (List K)) (r t : ℤ) (objs : List (PathObj K H)) (c : Canvas K) : Canvas K :=
  objs.foldl (fun c o => if o.live.any (·) then
    circlesAt r t (color.getD ((pal.choose (o.id.map hash)).getD [])) (f (get o.absolute)) c else c) c

theorem memAbs_cons (ras : Raster K) (hash : H → ℤ) (pal : Palette) (get : List (List K) → List (List K))
    (color : Option Color) (n : Nat) (f : List (List K) → List (List K)) (r t : ℤ) (o : PathObj K H)
    (os : List (PathObj K H)) (past : Option H → List (List (List K))) (m : Mem Pic) (frame : Nat)
    (ho : o.live.any (·) = true) (x : (Option H → List (List (List K))) × Mem Pic × Nat)
    (h : m.absLoop ras hash pal get color n (some f) r t (o :: os) past frame = some x) :
    ∃ m1 g, (m.circles ras frame r t (color.getD ((pal.choose (o.id.map hash)).getD []))
          (f (get o.absolute))).pathSteps ras (pathAlphas n) f t
          (color.getD ((pal.choose (o.id.map hash)).getD [])) 0 (get o.absolute) (past o.id) frame =
        some (m1, g) ∧
      m1.absLoop ras hash pal get color n (some f) r t os
        (Function.update past o.id ((get o.absolute :: past o.id).take n)) g = some x := by
  unfold Mem.absLoop at h
  rw [ho] at h
  simp only [Bool.not_true, Bool.false_eq_true, if_false] at h
  cases color with
  | some col =>
    dsimp only at h
    simp only [Option.getD_some]
    split at h
    · cases h
    · exact ⟨_, _, by assumption, h⟩
  | none =>
    dsimp only at h
    cases hc : pal.choose (o.id.map hash) with
    | none => rw [hc] at h; cases h
    | some col =>
      rw [hc] at h
      dsimp only at h
      simp only [Option.getD_some, Option.getD_none]
      split at h
      · cases h
      · exact ⟨_, _, by assumption, h⟩

theorem memAbs_prefix (ras : Raster K) (shape : List Nat) (fr : Pic) (hash : H → ℤ) (pal : Palette)
    (get : List (List K) → List (List K)) (color : Option Color) (n : Nat)
    (f : List (List K) → List (List K)) (r t : ℤ) (pre rest : List (PathObj K H))
    (past : Option H → List (List (List K))) (m : Mem Pic) (frame : Nat) (c : Canvas K) (hf : frame < m.next)
    (h : m.pic frame = c.render ras shape fr)
    (hp : ∀ o ∈ pre, o.live.any (·) = true → past o.id = [])
    (hd : ((pre.filter fun o => o.live.any (·)).map (·.id)).Nodup)
    (x : (Option H → List (List (List K))) × Mem Pic × Nat)
    (e : m.absLoop ras hash pal get color n (some f) r t (pre ++ rest) past frame = some x) :
    ∃ m1 past1, OnlyArray frame m m1 ∧
      m1.pic frame = (ownCircles hash pal get color f r t pre c).render ras shape fr ∧
      m1.absLoop ras hash pal get color n (some f) r t rest past1 frame = some x ∧
      ∀ i, (∀ o ∈ pre, o.live.any (·) = true → o.id ≠ i) → past1 i = past i := by
  induction pre generalizing past m c with
  | nil => exact ⟨m, past, OnlyArray.refl _ _, h, e, fun _ _ => rfl⟩
  | cons o os ih =>
    cases hl : o.live.any (·) with
    | false =>
      have e' : m.absLoop ras hash pal get color n (some f) r t (os ++ rest) past frame = some x := by
        rw [← e, List.cons_append]
        conv_rhs => unfold Mem.absLoop
        rw [hl]
        rfl
      obtain ⟨m1, past1, h1, h2, h3, h4⟩ := ih past m c hf h (fun o' ho' => hp o' (List.mem_cons_of_mem _ ho'))
        (by simpa [List.filter_cons, hl] using hd) e'
      refine ⟨m1, past1, h1, ?_, h3, fun i hi => h4 i fun o' ho' => hi o' (List.mem_cons_of_mem _ ho')⟩
      rw [h2]
      simp only [ownCircles, List.foldl_cons, hl]
      rfl
    | true =>
      obtain ⟨m0, g, e1, e2⟩ := memAbs_cons ras hash pal get color n f r t o (os ++ rest) past m frame hl x e
      obtain ⟨h1, h2⟩ := memCircles_spec ras shape fr frame r t
        (color.getD ((pal.choose (o.id.map hash)).getD [])) (f (get o.absolute)) m c h
      rw [hp o List.mem_cons_self hl] at e1
      cases e1
      simp only [List.filter_cons, hl, if_true, List.map_cons, List.nodup_cons] at hd
      obtain ⟨hd1, hd2⟩ := hd
      obtain ⟨m1, past1, h3, h4, h5, h6⟩ := ih _ _ _ (by rw [h2.next]; exact hf) h1
        (fun o' ho' hl' => by
          rw [Function.update_of_ne]
          · exact hp o' (List.mem_cons_of_mem _ ho') hl'
          · intro ee
            exact hd1 (List.mem_map.mpr ⟨o', List.mem_filter.mpr ⟨ho', hl'⟩, ee⟩)) hd2 e2
      refine ⟨m1, past1, h2.trans h3, ?_, h5, fun i hi => ?_⟩
      · rw [h4]
        simp only [ownCircles, List.foldl_cons, hl]
        rfl
      · rw [h6 i fun o' ho' => hi o' (List.mem_cons_of_mem _ ho'),
          Function.update_of_ne (fun ee => hi o List.mem_cons_self hl ee.symm)]

/-- the radius of the circles of `AbsolutePaths` -/
def AbsPaths.radiusAt (s : AbsPaths K H) (height : Nat) : ℤ :=
  s.radius.getD (truncInt (max ((height : K) / 100 * (7 / 10)) 1))

/-- the thickness of the circles and lines of `AbsolutePaths` -/
def AbsPaths.thicknessAt (s : AbsPaths K H) (height : Nat) : ℤ :=
  s.thickness.getD (truncInt (max ((height : K) / 100 / 7) 1))

/-- C95: if no object has a path yet, `AbsolutePaths.draw` draws in place: it returns the given array, with the
circles of the objects. -/
theorem C95_absolute_paths_first (ras : Raster K) (shape : List Nat) (hash : H → ℤ) (pal : Palette)
    (get : List (List K) → List (List K)) (color : Option Color) (n height : Nat) (m : Mem Pic)
    (s : AbsPaths K H) (frame : Nat) (hf : frame < m.next) (objs : List (PathObj K H))
    (f : List (List K) → List (List K))
    (hp : ∀ o ∈ objs, o.live.any (·) = true → s.past o.id = [])
    (hd : ((objs.filter fun o => o.live.any (·)).map (·.id)).Nodup) (m' : Mem Pic) (s' : AbsPaths K H) (out : Nat)
    (e : m.absDraw ras hash pal get color n height s frame objs (some f) = some (m', s', out)) :
    out = frame ∧ OnlyArray frame m m' ∧
      m'.pic frame = (ownCircles hash pal get color f (AbsPaths.radiusAt s height) (AbsPaths.thicknessAt s height) objs
        .base).render ras shape (m.pic frame) := by
  unfold Mem.absDraw at e
  dsimp only at e
  split at e
  · cases e
  · rename_i past m1 out1 e1
    cases e
    obtain ⟨m1, past1, h1, h2, h3, -⟩ := memAbs_prefix ras shape (m.pic frame) hash pal get color n f _ _ objs []
      s.past m frame .base hf rfl hp hd _ (by rw [List.append_nil]; exact e1)
    cases h3
    exact ⟨rfl, h1, h2⟩

/-- C95: if some object has a path, `AbsolutePaths.draw` does not return the given array, but it has drawn on it:
the circles of the objects up to the first one with a path, and nothing else. -/
theorem C95_absolute_paths_later (ras : Raster K) (shape : List Nat) (hash : H → ℤ) (pal : Palette)
    (get : List (List K) → List (List K)) (color : Option Color) (n height : Nat) (m : Mem Pic)
    (s : AbsPaths K H) (frame : Nat) (hf : frame < m.next) (pre post : List (PathObj K H)) (o : PathObj K H)
    (f : List (List K) → List (List K))
    (hp : ∀ o ∈ pre, o.live.any (·) = true → s.past o.id = [])
    (hd : ((pre.filter fun o => o.live.any (·)).map (·.id)).Nodup)
    (ho : o.live.any (·) = true) (hpast : s.past o.id ≠ [])
    (m' : Mem Pic) (s' : AbsPaths K H) (out : Nat)
    (e : m.absDraw ras hash pal get color n height s frame (pre ++ o :: post) (some f) = some (m', s', out)) :
    m.next ≤ out ∧ (∀ b, b < m.next → b ≠ frame → m'.pic b = m.pic b) ∧
      m'.pic frame = (ownCircles hash pal get color f (AbsPaths.radiusAt s height) (AbsPaths.thicknessAt s height)
        (pre ++ [o]) .base).render ras shape (m.pic frame) := by
  unfold Mem.absDraw at e
  dsimp only at e
  split at e
  · cases e
  · rename_i past m1 out1 e1
    cases e
    obtain ⟨m1, past1, h1, h2, h3, h4⟩ := memAbs_prefix ras shape (m.pic frame) hash pal get color n f _ _ pre
      (o :: post) s.past m frame .base hf rfl hp hd _ e1
    have hpo : past1 o.id = s.past o.id := h4 _ fun o' ho' hl' ee => hpast (by rw [← ee]; exact hp o' ho' hl')
    obtain ⟨m2, g, e2, e3⟩ := memAbs_cons ras hash pal get color n f _ _ o post past1 m1 frame ho _ h3
    obtain ⟨h5, h6⟩ := memCircles_spec ras shape (m.pic frame) frame _ _
      (color.getD ((pal.choose (o.id.map hash)).getD [])) (f (get o.absolute)) m1 _ h2
    have hs := memSteps_spec ras shape (m.pic frame) (pathAlphas n) f (AbsPaths.thicknessAt s height)
      (color.getD ((pal.choose (o.id.map hash)).getD [])) 0 (get o.absolute) (past1 o.id) _ frame _
      (by rw [h6.next, h1.next]; exact hf) h5
    erw [e2] at hs
    generalize pathSteps (pathAlphas n) f _ _ 0 _ _ _ = y at hs
    cases hs with
    | @some _ y hs =>
      have hg := hs.other (by rw [hpo]; exact fun h => hpast (List.length_eq_zero_iff.mp h))
      have hn := hs.next
      rw [h6.next, h1.next] at hg hn
      dsimp only at hg hn
      have hl := memAbsLoop_spec ras shape (m.pic frame) hash pal get color n (some f)
        (AbsPaths.radiusAt s height) (AbsPaths.thicknessAt s height) post
        (Function.update past1 o.id ((get o.absolute :: past1 o.id).take n)) m2 g y hs.used hs.pic
      erw [e3] at hl
      generalize AbsPaths.loop hash pal get color n _ _ _ post _ _ = z at hl
      cases hl with
      | some hl =>
        obtain ⟨-, hl⟩ := hl
        dsimp only at hl
        have hm2 : ∀ b, b < m.next → m2.pic b =
            (m1.circles ras frame (AbsPaths.radiusAt s height) (AbsPaths.thicknessAt s height)
              (color.getD ((pal.choose (o.id.map hash)).getD [])) (f (get o.absolute))).pic b :=
          fun b hb => hs.old b (by rw [h6.next, h1.next]; exact hb)
        refine ⟨?_, fun b hb hbf => ?_, ?_⟩
        · rcases hl.out with e | e
          · rw [e]; exact hg
          · exact hn.trans e
        · rw [hl.old b (lt_of_lt_of_le hb hn) (by omega), hm2 b hb]
          exact (h6.rest b hbf).trans (h1.rest b hbf)
        · rw [hl.old frame (lt_of_lt_of_le hf hn) (by omega), hm2 frame hf]
          refine h5.trans ?_
          simp only [ownCircles, List.foldl_append, List.foldl_cons, List.foldl_nil, ho]
          rfl

end

/-! ### Examples -/

/-- circles and lines of single pixels, no texts -/
def dotRaster : Raster ℚ where
  circle := fun pos _ _ p => decide (pos = [p.1, p.2])
  line := fun a b _ p => decide (a = [p.1, p.2] ∨ b = [p.1, p.2])
  rectangle := fun a _ _ p => decide (a = [p.1, p.2])
  glyph := fun _ _ => false
  ink := fun _ _ _ _ => 0
  nan := [0, 0]
  ink_le := fun _ _ _ _ => Nat.zero_le _

/-- a frame with the value 10 everywhere, at address 0 -/
def frameMem : Mem Pic := ⟨1, fun _ _ _ => 10⟩

/-- an object at the given place -/
def objAt (i : Nat) (x y : ℚ) : PathObj ℚ Nat := ⟨some i, [[x, y]], [[x, y]], [true]⟩

/-- C95_draw_points, C95_draw_boxes: the hypotheses hold for a point and for a box -/
example : let env : DrawEnv ℚ Nat := ⟨fun n => n, fun _ => ['o'], fun _ => [], Palette.initial, fun _ => 0⟩
    (∃ c, drawPoints env [100, 100, 3] {} (some [⟨[[2, 3]], some 1, none, none, [true]⟩]) = some (some c)) ∧
    ∃ c, drawBoxes env [100, 100, 3] {} (some [⟨[[2, 3], [5, 6]], some 1, none, none, [true, true]⟩]) = some c := by
  exact ⟨⟨_, rfl⟩, ⟨_, rfl⟩⟩

/-- C95_draw_grid: the crosses are in the frame afterwards -/
example : ((drawAbsoluteGrid [((4 : ℚ), (5 : ℚ))] none 10 10 1 1 [255, 0, 0]).onArray dotRaster [10, 10, 3] frameMem
    0).map (fun m => [m.pic 0 (4, 4) 0, m.pic 0 (4, 6) 0, m.pic 0 (3, 5) 0, m.pic 0 (5, 5) 0, m.pic 0 (4, 4) 1]) =
    some [255, 255, 255, 255, 0] := by
  decide +kernel

/-- `Paths.draw` of an object at `(1, 2)`, then the frame and the result are made black, then `Paths.draw` of an
object at `(5, 5)` -/
def pathsTwice : Option (Mem Pic × MemPaths × Nat × Nat) :=
  (MemPaths.draw dotRaster (fun n : Nat => (n : ℤ)) Palette.initial id (some [100, 0, 0]) (1 / 2) 100 frameMem
    ⟨none, none, none⟩ 0 [objAt 1 1 2]).bind fun (m, s, out) =>
    (s.draw dotRaster (fun n : Nat => (n : ℤ)) Palette.initial id (some [100, 0, 0]) (1 / 2) 100
      ((m.set 0 fun _ _ => 0).set out fun _ _ => 0) 0 [objAt 1 5 5]).map fun (m, s, out') => (m, s, out, out')

/-- C95: the first circle is still in the second picture, fading -/
example : pathsTwice.map (fun (m, _, out, out') => (out, out', [m.pic out' (1, 2) 0, m.pic out' (5, 5) 0,
    m.pic out' (0, 0) 0, m.pic 0 (5, 5) 0, m.pic out (5, 5) 0])) = some (3, 5, [50, 100, 0, 0, 0]) := by
  decide +kernel

/-- C95_paths_private, C95_paths_pictures: this is a program -/
example : ∃ m s known, PathsProgram dotRaster (fun n : Nat => (n : ℤ)) Palette.initial id (some [100, 0, 0])
    (1 / 2) 100 none none m s known [[objAt 1 1 2], [objAt 1 5 5]] := by
  have h : ∃ x, MemPaths.draw dotRaster (fun n : Nat => (n : ℤ)) Palette.initial id (some [100, 0, 0]) (1 / 2) 100
      frameMem ⟨none, none, none⟩ 0 [objAt 1 1 2] = some x := ⟨_, rfl⟩
  obtain ⟨⟨m, s, out⟩, h⟩ := h
  have h1 := PathsProgram.draw 0 [objAt 1 1 2] List.mem_cons_self h
    (PathsProgram.start (radius := none) (thickness := none) frameMem [0] (by decide))
  have h2 := PathsProgram.write out (fun _ _ => 0) List.mem_cons_self
    (PathsProgram.write 0 (fun _ _ => 0) (by simp) h1)
  have h' : ∃ x, s.draw dotRaster (fun n : Nat => (n : ℤ)) Palette.initial id (some [100, 0, 0]) (1 / 2) 100
      ((m.set 0 fun _ _ => 0).set out fun _ _ => 0) 0 [objAt 1 5 5] = some x := by
    cases h
    exact ⟨_, rfl⟩
  obtain ⟨⟨m', s', out'⟩, h'⟩ := h'
  exact ⟨m', s', _, PathsProgram.draw 0 [objAt 1 5 5] (by simp) h' h2⟩

/-- C95_paths_call: a new drawer -/
example : PathsHeld dotRaster [100, 100, 3] frameMem ⟨none, none, none⟩ (⟨none, none, none⟩ : Paths ℚ) :=
  ⟨rfl, rfl, .none⟩

/-- C95: `AbsolutePaths.draw` of an object without a path, one with a path and another one without: the returned
array is not the frame, but the circles of the first two objects are also in the frame, the line and the last
circle are not -/
theorem C95_absolute_paths_witness :
    (frameMem.absDraw dotRaster (fun n : Nat => (n : ℤ)) Palette.initial id (some [100, 0, 0]) 3 100
      ⟨none, none, fun i => if i = some 2 then [[[7, 7]]] else []⟩ 0 [objAt 1 1 2, objAt 2 5 5, objAt 3 8 8]
      (some id)).map (fun (m, _, out) => (out, [m.pic out (1, 2) 0, m.pic out (5, 5) 0, m.pic out (7, 7) 0,
        m.pic out (8, 8) 0], [m.pic 0 (1, 2) 0, m.pic 0 (5, 5) 0, m.pic 0 (7, 7) 0, m.pic 0 (8, 8) 0])) =
    some (2, [100, 100, 99, 100], [100, 100, 10, 10]) := by
  decide +kernel

/-- C95_absolute_paths_later: its hypotheses hold there -/
example : let past : Option Nat → List (List (List ℚ)) := fun i => if i = some 2 then [[[7, 7]]] else []
    (∀ o ∈ [objAt 1 1 2], o.live.any (·) = true → past o.id = []) ∧
    (([objAt 1 1 2].filter fun o => o.live.any (·)).map (·.id)).Nodup ∧
    (objAt 2 5 5).live.any (·) = true ∧ past (objAt 2 5 5).id ≠ [] := by
  decide +kernel

/-- C95_absolute_paths_first: two new objects -/
example : (frameMem.absDraw dotRaster (fun n : Nat => (n : ℤ)) Palette.initial id (some [100, 0, 0]) 3 100
      ⟨none, none, fun _ => []⟩ 0 [objAt 1 1 2, objAt 2 5 5] (some id)).map (fun (m, _, out) => (out,
        [m.pic 0 (1, 2) 0, m.pic 0 (5, 5) 0, m.pic 0 (7, 7) 0])) = some (0, [100, 100, 10]) ∧
    (([objAt 1 1 2, objAt 2 5 5].filter fun o => o.live.any (·)).map (·.id)).Nodup := by
  decide +kernel

end Norfair.Props
