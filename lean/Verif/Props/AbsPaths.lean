import Verif.Props.Drawing

/-!
`AbsolutePaths` (C50).
-/

namespace Norfair.Props

open Norfair

variable {K H : Type}

section
variable [Field K] [LinearOrder K] [FloorRing K] [DecidableEq H]

/-- the points drawn for the objects with an id, in order; objects without live points are not drawn -/
def drawnFor (get : List (List K) → List (List K)) (id : Option H) (objs : List (PathObj K H)) :
    List (List (List K)) :=
  (objs.filter fun o => decide (o.id = id ∧ true ∈ o.live)).map fun o => get o.absolute

theorem take_append_take {α : Type} (m : Nat) (a b : List α) :
    (a ++ b.take m).take m = (a ++ b).take m := by
  rw [List.take_append, List.take_append, List.take_take, min_eq_left (Nat.sub_le _ _)]

/-- the color of an object, as in `pathColor` -/
theorem absLoop_dead (hash : H → ℤ) (pal : Palette) (get : List (List K) → List (List K))
    (color : Option Color) (m : Nat) (f : Option (List (List K) → List (List K))) (r t : ℤ)
    (o : PathObj K H) (os : List (PathObj K H)) (past : Option H → List (List (List K))) (c : Canvas K)
    (hd : true ∉ o.live) :
    AbsPaths.loop hash pal get color m f r t (o :: os) past c =
      AbsPaths.loop hash pal get color m f r t os past c := by
  simp only [AbsPaths.loop]
  rw [if_pos]
  simp only [Bool.not_eq_true', List.any_eq_false]
  intro b hb hb'
  exact hd (by rw [hb'] at hb; exact hb)

theorem absLoop_live (hash : H → ℤ) (pal : Palette) (get : List (List K) → List (List K))
    (color : Option Color) (m : Nat) (f : Option (List (List K) → List (List K))) (r t : ℤ)
    (o : PathObj K H) (os : List (PathObj K H)) (past : Option H → List (List (List K))) (c : Canvas K)
    (hd : true ∈ o.live) :
    AbsPaths.loop hash pal get color m f r t (o :: os) past c =
      (pathColor hash pal color o).bind fun col => f.bind fun f =>
        (pathSteps (pathAlphas m) f t col 0 (get o.absolute) (past o.id)
          (circlesAt r t col (f (get o.absolute)) c)).bind fun c =>
            AbsPaths.loop hash pal get color m (some f) r t os
              (Function.update past o.id ((get o.absolute :: past o.id).take m)) c := by
  simp only [AbsPaths.loop]
  rw [if_neg]
  · unfold pathColor
    cases color with
    | none =>
      cases pal.choose (o.id.map hash) with
      | none => rfl
      | some col =>
        cases f with
        | none => rfl
        | some f =>
          simp only [Option.bind_some]
          cases pathSteps (pathAlphas m) f t col 0 (get o.absolute) (past o.id)
            (circlesAt r t col (f (get o.absolute)) c) <;> rfl
    | some col =>
      cases f with
      | none => rfl
      | some f =>
        simp only [Option.bind_some]
        cases pathSteps (pathAlphas m) f t col 0 (get o.absolute) (past o.id)
          (circlesAt r t col (f (get o.absolute)) c) <;> rfl
  · simp only [Bool.not_eq_true', List.any_eq_false, not_forall]
    exact ⟨true, hd, by simp⟩

theorem absLoop_past (hash : H → ℤ) (pal : Palette) (get : List (List K) → List (List K))
    (color : Option Color) (m : Nat) (f : Option (List (List K) → List (List K))) (r t : ℤ) (id : Option H)
    (os : List (PathObj K H)) : ∀ (past past' : Option H → List (List (List K))) (c c' : Canvas K),
    (past id).length ≤ m →
    AbsPaths.loop hash pal get color m f r t os past c = some (past', c') →
    past' id = ((drawnFor get id os).reverse ++ past id).take m := by
  induction os with
  | nil =>
    intro past past' c c' hl h
    simp only [AbsPaths.loop, Option.some.injEq, Prod.mk.injEq] at h
    obtain ⟨rfl, -⟩ := h
    simp [drawnFor, List.take_of_length_le hl]
  | cons o os ih =>
    intro past past' c c' hl h
    by_cases hd : true ∈ o.live
    · rw [absLoop_live _ _ _ _ _ _ _ _ _ _ _ _ hd] at h
      simp only [Option.bind_eq_some_iff] at h
      obtain ⟨col, -, f', rfl, c1, -, h⟩ := h
      by_cases hid : o.id = id
      · rw [ih _ _ _ _ (by rw [← hid]; simp) h]
        rw [← hid, Function.update_self, take_append_take]
        simp [drawnFor, hd]
      · rw [ih _ _ _ _ (by rw [Function.update_of_ne (Ne.symm hid)]; exact hl) h]
        rw [Function.update_of_ne (Ne.symm hid)]
        simp [drawnFor, hid]
    · rw [absLoop_dead _ _ _ _ _ _ _ _ _ _ _ _ hd] at h
      rw [ih _ _ _ _ hl h]
      simp [drawnFor, hd]

/-- what is given to one call of `AbsolutePaths.draw` -/
structure AbsCall (K H : Type) where
  height : Nat
  objs : List (PathObj K H)
  absToRel : Option (List (List K) → List (List K))

/-- `AbsolutePaths.draw` on one frame after the other; `none` if a call raises -/
def absRun (hash : H → ℤ) (pal : Palette) (get : List (List K) → List (List K))
    (color : Option Color) (m : Nat) : AbsPaths K H → List (AbsCall K H) → Option (AbsPaths K H)
  | s, [] => some s
  | s, f :: fs =>
    (AbsPaths.draw hash pal get color m f.height s f.objs f.absToRel).bind fun q =>
      absRun hash pal get color m q.1 fs

theorem absDraw_some (hash : H → ℤ) (pal : Palette) (get : List (List K) → List (List K))
    (color : Option Color) (m : Nat) (height : Nat) (s : AbsPaths K H) (objs : List (PathObj K H))
    (f : Option (List (List K) → List (List K))) (q : AbsPaths K H × Canvas K)
    (h : AbsPaths.draw hash pal get color m height s objs f = some q) :
    AbsPaths.loop hash pal get color m f (s.radius.getD (truncInt (max ((height : K) / 100 * (7 / 10)) 1)))
      (s.thickness.getD (truncInt (max ((height : K) / 100 / 7) 1))) objs s.past .base =
        some (q.1.past, q.2) := by
  unfold AbsPaths.draw at h
  simp only at h
  split at h
  · cases h
  · rename_i past c hl
    cases h
    exact hl

/-- C50: after any number of frames the stored path of each object is the list of the points drawn for it,
newest first, cut after `max_history`. -/
theorem C50_history (hash : H → ℤ) (pal : Palette) (get : List (List K) → List (List K))
    (color : Option Color) (m : Nat) (radius thickness : Option ℤ) (calls : List (AbsCall K H))
    (s : AbsPaths K H)
    (h : absRun hash pal get color m ⟨radius, thickness, fun _ => []⟩ calls = some s) (id : Option H) :
    s.past id = ((calls.flatMap fun f => drawnFor get id f.objs).reverse).take m := by
  have key : ∀ (calls : List (AbsCall K H)) (s0 s : AbsPaths K H), (s0.past id).length ≤ m →
      absRun hash pal get color m s0 calls = some s →
      s.past id = ((calls.flatMap fun f => drawnFor get id f.objs).reverse ++ s0.past id).take m := by
    intro calls
    induction calls with
    | nil =>
      intro s0 s hl h
      cases h
      simp [List.take_of_length_le hl]
    | cons f fs ih =>
      intro s0 s hl h
      simp only [absRun, Option.bind_eq_some_iff] at h
      obtain ⟨q, hq, h⟩ := h
      have hp := absLoop_past hash pal get color m f.absToRel _ _ id f.objs _ _ _ _ hl
        (absDraw_some _ _ _ _ _ _ _ _ _ _ hq)
      rw [ih q.1 s (by rw [hp]; simp) h, hp, take_append_take]
      simp
  simpa using key calls _ s (by simp) h

/-- the lines on a picture since it was last blended -/
def topLines : Canvas K → List (List ℤ × List ℤ)
  | .base => []
  | .black => []
  | .scaled c _ => topLines c
  | .circle c _ _ _ _ => topLines c
  | .line c a b _ _ => topLines c ++ [(a, b)]
  | .rectangle c _ _ _ _ => topLines c
  | .text c _ _ _ _ _ => topLines c
  | .blend _ _ _ _ => []

/-- the layers of lines blended into a picture, with their weights (of the layer and of what was there) -/
def layers : Canvas K → List (List (List ℤ × List ℤ) × K × K)
  | .base => []
  | .black => []
  | .scaled c _ => layers c
  | .circle c _ _ _ _ => layers c
  | .line c _ _ _ _ => layers c
  | .rectangle c _ _ _ _ => layers c
  | .text c _ _ _ _ _ => layers c
  | .blend a b x y => layers b ++ [(topLines a, x, y)]

/-- the lines from the points of one frame to the points of the frame before -/
def segments (f : List (List K) → List (List K)) (new old : List (List K)) : List (List ℤ × List ℤ) :=
  ((f new).zip (f old)).map fun p => (p.1.map truncInt, p.2.map truncInt)

omit [DecidableEq H] in
theorem pathLines_spec (t : ℤ) (col : Color) (last ps : List (List K)) : ∀ c : Canvas K,
    (last.length < ps.length → pathLines t col last ps c = none) ∧
    (ps.length ≤ last.length → ∃ c', pathLines t col last ps c = some c' ∧ layers c' = layers c ∧
      topLines c' = topLines c ++ (last.zip ps).map fun p => (p.1.map truncInt, p.2.map truncInt)) := by
  induction ps generalizing last with
  | nil => intro c; refine ⟨by simp, fun _ => ⟨c, ?_, rfl, by simp⟩⟩; cases last <;> rfl
  | cons p ps ih =>
    intro c
    cases last with
    | nil => exact ⟨fun _ => rfl, by simp⟩
    | cons l last =>
      have := ih last (c.line (l.map truncInt) (p.map truncInt) t col)
      constructor
      · intro h
        rw [pathLines]
        exact this.1 (by simpa using h)
      · intro h
        obtain ⟨c', h1, h2, h3⟩ := this.2 (by simpa using h)
        refine ⟨c', by rw [pathLines]; exact h1, h2, ?_⟩
        rw [h3]
        simp [topLines]

omit [DecidableEq H] in
/-- the steps of a path: one layer for each stored list of points -/
theorem pathSteps_spec (f : List (List K) → List (List K)) (t : ℤ) (col : Color) (alphas : List K)
    (past : List (List (List K))) : ∀ (i : Nat) (last : List (List K)) (c : Canvas K),
    i + past.length ≤ alphas.length →
    (∀ p ∈ past, (f p).length = (f last).length) → topLines c = [] →
    ∃ c', pathSteps alphas f t col i last past c = some c' ∧ topLines c' = [] ∧
      layers c' = layers c ++ (((last :: past).zip past).zip (alphas.drop i)).map fun q =>
        (segments f q.1.1 q.1.2, q.2, 1 - q.2) := by
  induction past with
  | nil => intro i last c _ _ h; exact ⟨c, rfl, h, by simp⟩
  | cons p past ih =>
    intro i last c hi hlen hc
    have hp := hlen p (List.mem_cons_self ..)
    obtain ⟨ov, h1, h2, h3⟩ := (pathLines_spec t col (f last) (f p) c).2 (by omega)
    simp only [List.length_cons] at hi
    have hia : i < alphas.length := by omega
    have ha : alphas[i]? = some alphas[i] := List.getElem?_eq_getElem hia
    obtain ⟨c', e1, e2, e3⟩ := ih (i + 1) p (ov.blend c alphas[i] (1 - alphas[i])) (by omega)
      (fun q hq => by rw [hlen q (List.mem_cons_of_mem _ hq), hp]) rfl
    refine ⟨c', ?_, e2, ?_⟩
    · rw [pathSteps, h1]
      simp only [ha]
      exact e1
    · rw [e3, layers, h3, hc, List.drop_eq_getElem_cons hia]
      simp only [List.nil_append, List.append_assoc, List.cons_append, List.zip_cons_cons, List.map_cons,
        segments]

omit [DecidableEq H] in
theorem circlesAt_layers (r t : ℤ) (col : Color) (ps : List (List K)) (c : Canvas K) :
    layers (circlesAt r t col ps c) = layers c ∧ topLines (circlesAt r t col ps c) = topLines c := by
  unfold circlesAt
  induction ps generalizing c with
  | nil => exact ⟨rfl, rfl⟩
  | cons p ps ih => rw [List.foldl_cons, (ih _).1, (ih _).2]; exact ⟨rfl, rfl⟩

omit [LinearOrder K] [FloorRing K] in
theorem pathAlphas_length (m : Nat) : (pathAlphas m : List K).length = m := by simp [pathAlphas]

/-- the layers of one object: the lines between its points and the stored ones, each step with its weight -/
def pathLayers (f : List (List K) → List (List K)) (m : Nat) (pts : List (List K))
    (past : List (List (List K))) : List (List (List ℤ × List ℤ) × K × K) :=
  (((pts :: past).zip past).zip (pathAlphas m)).map fun q => (segments f q.1.1 q.1.2, q.2, 1 - q.2)

/-- The stored paths fit: no more than `m` lists of points, each with `n` points. -/
def PathsFit (n m : Nat) (past : Option H → List (List (List K))) : Prop :=
  ∀ id, (past id).length ≤ m ∧ ∀ p ∈ past id, p.length = n

/-- the circles drawn directly on the frame -/
def frameCircles : Canvas K → List (List ℤ)
  | .base => []
  | .black => []
  | .scaled c _ => frameCircles c
  | .circle c p _ _ _ => frameCircles c ++ [p]
  | .line c _ _ _ _ => frameCircles c
  | .rectangle c _ _ _ _ => frameCircles c
  | .text c _ _ _ _ _ => frameCircles c
  | .blend _ b _ _ => frameCircles b

omit [DecidableEq H] in
theorem circlesAt_frame (r t : ℤ) (col : Color) (ps : List (List K)) (c : Canvas K) :
    frameCircles (circlesAt r t col ps c) = frameCircles c ++ ps.map fun p => p.map truncInt := by
  unfold circlesAt
  induction ps generalizing c with
  | nil => simp
  | cons p ps ih => rw [List.foldl_cons, ih]; simp [frameCircles]

omit [DecidableEq H] in
theorem pathSteps_frame (f : List (List K) → List (List K)) (t : ℤ) (col : Color) (alphas : List K)
    (past : List (List (List K))) : ∀ (i : Nat) (last : List (List K)) (c c' : Canvas K),
    pathSteps alphas f t col i last past c = some c' → frameCircles c' = frameCircles c := by
  induction past with
  | nil => intro i last c c' h; cases h; rfl
  | cons p past ih =>
    intro i last c c' h
    rw [pathSteps] at h
    split at h
    · cases h
    · split at h
      · cases h
      · rw [ih _ _ _ _ h]; rfl

theorem absLoop_spec (hash : H → ℤ) (pal : Palette) (get : List (List K) → List (List K))
    (color : Option Color) (hcol : color ≠ none ∨ pal.colors ≠ []) (m n : Nat)
    (f : List (List K) → List (List K)) (hf : ∀ p, (f p).length = p.length) (r t : ℤ)
    (objs : List (PathObj K H)) : ∀ (past : Option H → List (List (List K))) (c : Canvas K),
    PathsFit n m past → (∀ o ∈ objs, (get o.absolute).length = n) → topLines c = [] →
    ∃ past' c', AbsPaths.loop hash pal get color m (some f) r t objs past c = some (past', c') ∧
      PathsFit n m past' ∧ topLines c' = [] ∧
      frameCircles c' = frameCircles c ++ (objs.filter fun o => decide (true ∈ o.live)).flatMap (fun o =>
        (f (get o.absolute)).map fun p => p.map truncInt) ∧
      ((objs.map (·.id)).Nodup → layers c' = layers c ++
        (objs.filter fun o => decide (true ∈ o.live)).flatMap fun o =>
          pathLayers f m (get o.absolute) (past o.id)) := by
  induction objs with
  | nil => intro past c hp _ hc; exact ⟨past, c, rfl, hp, hc, by simp, by simp⟩
  | cons o os ih =>
    intro past c hp hn hc
    by_cases hd : true ∈ o.live
    · have hcc : ∃ col, pathColor hash pal color o = some col := by
        unfold pathColor
        cases color with
        | some col => exact ⟨col, rfl⟩
        | none =>
          have hpal : pal.colors ≠ [] := by rcases hcol with h | h; exact absurd rfl h; exact h
          simp only
          cases o.id.map hash with
          | none => exact ⟨_, rfl⟩
          | some h =>
            obtain ⟨c, -, hc⟩ := C52_member_partial pal hpal h
            exact ⟨c, hc⟩
      obtain ⟨col, hcc⟩ := hcc
      have hno := hn o (List.mem_cons_self ..)
      obtain ⟨hpl, hpn⟩ := hp o.id
      obtain ⟨c1, e1, e2, e3⟩ := pathSteps_spec f t col (pathAlphas m) (past o.id) 0 (get o.absolute)
        (circlesAt r t col (f (get o.absolute)) c) (by rw [pathAlphas_length]; omega)
        (fun p hp' => by rw [hf, hf, hno, hpn p hp']) (by rw [(circlesAt_layers r t col _ c).2, hc])
      have e4 := pathSteps_frame f t col _ _ _ _ _ _ e1
      have hp' : PathsFit n m (Function.update past o.id ((get o.absolute :: past o.id).take m)) := by
        intro id
        by_cases hid : id = o.id
        · subst hid
          rw [Function.update_self]
          refine ⟨by simp, fun p hp' => ?_⟩
          rcases List.mem_cons.mp (List.mem_of_mem_take hp') with rfl | h
          · exact hno
          · exact hpn p h
        · rw [Function.update_of_ne hid]; exact hp id
      obtain ⟨past', c', h1, h2, h3, h4, h5⟩ := ih _ c1 hp'
        (fun o ho => hn o (List.mem_cons_of_mem _ ho)) e2
      refine ⟨past', c', ?_, h2, h3, ?_, ?_⟩
      · rw [absLoop_live _ _ _ _ _ _ _ _ _ _ _ _ hd, hcc]
        simp only [Option.bind_some]
        rw [e1]
        exact h1
      · rw [h4, e4, circlesAt_frame, List.filter_cons, if_pos (by simpa using hd)]
        simp
      · intro hnd
        rw [List.map_cons, List.nodup_cons] at hnd
        rw [h5 hnd.2, e3, (circlesAt_layers r t col _ c).1, List.filter_cons, if_pos (by simpa using hd),
          List.flatMap_cons, List.drop_zero, ← List.append_assoc]
        congr 1
        rw [List.flatMap_def, List.flatMap_def]
        congr 1
        refine List.map_congr_left fun o' ho' => ?_
        have : o'.id ≠ o.id := by
          intro h
          exact hnd.1 (List.mem_map.mpr ⟨o', (List.mem_filter.mp ho').1, h⟩)
        rw [Function.update_of_ne this]
    · obtain ⟨past', c', h1, h2, h3, h4, h5⟩ := ih past c hp
        (fun o ho => hn o (List.mem_cons_of_mem _ ho)) hc
      refine ⟨past', c', ?_, h2, h3, ?_, ?_⟩
      · rw [absLoop_dead _ _ _ _ _ _ _ _ _ _ _ _ hd]; exact h1
      · rw [h4, List.filter_cons, if_neg (by simpa using hd)]
      · intro hnd
        rw [List.map_cons, List.nodup_cons] at hnd
        rw [h5 hnd.2, List.filter_cons, if_neg (by simpa using hd)]

/-- C50: with a transformation, always the same number `n` of points per object and a palette that is not
empty (or a fixed color), `draw` does not raise (in particular, the table of weights is not indexed out of
range), and this stays so for the next frame. The picture has the circles of the live objects and, for
each of them, one layer of lines per stored list of points, from each point to the one before it in
time, each layer with the next weight of the table. -/
theorem C50_picture (hash : H → ℤ) (pal : Palette) (get : List (List K) → List (List K))
    (color : Option Color) (hcol : color ≠ none ∨ pal.colors ≠ []) (m n height : Nat)
    (f : List (List K) → List (List K)) (hf : ∀ p, (f p).length = p.length) (s : AbsPaths K H)
    (hs : PathsFit n m s.past) (objs : List (PathObj K H)) (hn : ∀ o ∈ objs, (get o.absolute).length = n) :
    ∃ s' c, AbsPaths.draw hash pal get color m height s objs (some f) = some (s', c) ∧
      PathsFit n m s'.past ∧
      frameCircles c = (objs.filter fun o => decide (true ∈ o.live)).flatMap (fun o =>
        (f (get o.absolute)).map fun p => p.map truncInt) ∧
      ((objs.map (·.id)).Nodup → layers c = (objs.filter fun o => decide (true ∈ o.live)).flatMap fun o =>
        pathLayers f m (get o.absolute) (s.past o.id)) := by
  obtain ⟨past', c', h1, h2, -, h4, h5⟩ := absLoop_spec hash pal get color hcol m n f hf
    (s.radius.getD (truncInt (max ((height : K) / 100 * (7 / 10)) 1)))
    (s.thickness.getD (truncInt (max ((height : K) / 100 / 7) 1))) objs s.past .base hs hn rfl
  refine ⟨⟨some (s.radius.getD (truncInt (max ((height : K) / 100 * (7 / 10)) 1))),
    some (s.thickness.getD (truncInt (max ((height : K) / 100 / 7) 1))), past'⟩, c', ?_, h2,
    by simpa [frameCircles] using h4, by simpa [layers] using h5⟩
  unfold AbsPaths.draw
  simp only [h1]

/-- C50: no sequence of frames makes `draw` raise, starting from an empty history, for the default points
(the mean of the points of the object). -/
theorem C50_never_raises (hash : H → ℤ) (pal : Palette) (color : Option Color)
    (hcol : color ≠ none ∨ pal.colors ≠ []) (m : Nat) (radius thickness : Option ℤ)
    (calls : List (AbsCall K H))
    (hc : ∀ q ∈ calls, ∃ f, q.absToRel = some f ∧ ∀ p : List (List K), (f p).length = p.length) :
    ∃ s, absRun hash pal meanPoint color m ⟨radius, thickness, fun _ => []⟩ calls = some s := by
  have key : ∀ s0 : AbsPaths K H, PathsFit 1 m s0.past →
      ∃ s, absRun hash pal meanPoint color m s0 calls = some s := by
    induction calls with
    | nil => intro s0 _; exact ⟨s0, rfl⟩
    | cons q calls ih =>
      intro s0 hs
      obtain ⟨f, hqf, hf⟩ := hc q (List.mem_cons_self ..)
      obtain ⟨s', c, h1, h2, -⟩ := C50_picture hash pal meanPoint color hcol m 1 q.height f hf s0 hs q.objs
        (fun o _ => rfl)
      obtain ⟨s, h⟩ := ih (fun q hq => hc q (List.mem_cons_of_mem _ hq)) s' h2
      refine ⟨s, ?_⟩
      rw [absRun, hqf, h1]
      exact h
  exact key _ (fun id => ⟨by simp, by simp⟩)

/-- C50: without a transformation, the default of the argument, `draw` raises as soon as there is an object
with a live point -/
theorem C50_no_transformation (hash : H → ℤ) (pal : Palette) (get : List (List K) → List (List K))
    (color : Option Color) (m height : Nat) (s : AbsPaths K H) (objs : List (PathObj K H))
    (ho : ∃ o ∈ objs, true ∈ o.live) :
    AbsPaths.draw hash pal get color m height s objs none = none := by
  have key : ∀ r t (past : Option H → List (List (List K))) (c : Canvas K),
      AbsPaths.loop hash pal get color m none r t objs past c = none := by
    intro r t
    induction objs with
    | nil => obtain ⟨o, h, -⟩ := ho; cases h
    | cons o os ih =>
      intro past c
      by_cases hd : true ∈ o.live
      · rw [absLoop_live _ _ _ _ _ _ _ _ _ _ _ _ hd]
        cases pathColor hash pal color o <;> rfl
      · rw [absLoop_dead _ _ _ _ _ _ _ _ _ _ _ _ hd]
        obtain ⟨o', h, hl⟩ := ho
        rcases List.mem_cons.mp h with rfl | h
        · exact absurd hl hd
        · exact ih ⟨o', h, hl⟩ past c
  unfold AbsPaths.draw
  simp only [key]

omit [FloorRing K] in
/-- C50: the weights go down in equal steps from 0.99 to 0.01 -/
theorem C50_alphas [IsStrictOrderedRing K] (m : Nat) :
    (pathAlphas m : List K).length = m ∧
    (∀ a ∈ (pathAlphas m : List K), 1 / 100 ≤ a ∧ a ≤ 99 / 100) ∧
    (∀ i j : Nat, i < j → j < m → (pathAlphas m : List K).getD j 0 < (pathAlphas m : List K).getD i 0) ∧
    (0 < m → (pathAlphas m : List K).getD 0 0 = 99 / 100) ∧
    (1 < m → (pathAlphas m : List K).getD (m - 1) 0 = 1 / 100) := by
  have hget : ∀ i : Nat, i < m → (pathAlphas m : List K).getD i 0 =
      99 / 100 - (i : K) * ((98 / 100) / ((m - 1 : Nat) : K)) := by
    intro i hi
    simp [pathAlphas, List.getD, List.getElem?_map, List.getElem?_range hi]
  refine ⟨pathAlphas_length m, ?_, ?_, ?_, ?_⟩
  · intro a ha
    simp only [pathAlphas, List.mem_map, List.mem_range] at ha
    obtain ⟨i, hi, rfl⟩ := ha
    rcases Nat.eq_zero_or_pos (m - 1) with h0 | h0
    · rw [h0]; simp; norm_num
    · have hpos : (0 : K) < ((m - 1 : Nat) : K) := by exact_mod_cast h0
      have hle : (i : K) ≤ ((m - 1 : Nat) : K) := by exact_mod_cast (by omega : i ≤ m - 1)
      have h1 : (i : K) * ((98 / 100) / ((m - 1 : Nat) : K)) ≤ 98 / 100 := by
        rw [← mul_div_assoc, div_le_iff₀ hpos]
        nlinarith
      have h2 : 0 ≤ (i : K) * ((98 / 100) / ((m - 1 : Nat) : K)) := by positivity
      constructor <;> linarith
  · intro i j hij hj
    rw [hget i (by omega), hget j hj]
    have hpos : (0 : K) < ((m - 1 : Nat) : K) := by exact_mod_cast (by omega : 0 < m - 1)
    have : (i : K) < (j : K) := by exact_mod_cast hij
    have h2 : (0 : K) < (98 / 100) / ((m - 1 : Nat) : K) := by positivity
    have := mul_lt_mul_of_pos_right this h2
    linarith
  · intro h
    rw [hget 0 h]
    simp
  · intro h
    rw [hget (m - 1) (by omega)]
    have hpos : ((m - 1 : Nat) : K) ≠ 0 := by
      have : (0 : K) < ((m - 1 : Nat) : K) := by exact_mod_cast (by omega : 0 < m - 1)
      exact this.ne'
    rw [mul_div_cancel₀ _ hpos]
    norm_num

end

/-! ### Examples -/

/-- three frames with one object that is lost in the second -/
def toyCalls : List (AbsCall ℚ Nat) :=
  [⟨480, [⟨some 1, [], [[0, 0], [2, 2]], [true, true]⟩], some id⟩,
   ⟨480, [⟨some 1, [], [[7, 7], [7, 7]], [false, false]⟩], some id⟩,
   ⟨480, [⟨some 1, [], [[2, 0], [2, 2]], [true, false]⟩], some id⟩]

/-- C50: the stored path, and the hypotheses of C50_never_raises -/
example : ((absRun (K := ℚ) (fun n : Nat => (n : ℤ)) Palette.initial meanPoint (some [0, 0, 0]) 20 ⟨none, none, fun _ => []⟩
      toyCalls).map fun s => s.past (some 1)) = some [[[2, 1]], [[1, 1]]] ∧
    ∀ q ∈ toyCalls, ∃ f, q.absToRel = some f ∧ ∀ p : List (List ℚ), (f p).length = p.length := by
  refine ⟨by decide +kernel, ?_⟩
  intro q hq
  simp only [toyCalls, List.mem_cons, List.not_mem_nil, or_false] at hq
  rcases hq with rfl | rfl | rfl <;> exact ⟨id, rfl, fun _ => rfl⟩

/-- C50_picture: a stored path of two lists of points gives two layers -/
example : (AbsPaths.draw (K := ℚ) (fun n : Nat => (n : ℤ)) Palette.initial meanPoint (some [0, 0, 0]) 3 480
    ⟨none, none, fun _ => [[[1, 1]], [[0, 0]]]⟩ [⟨some 1, [], [[2, 0], [2, 2]], [true, false]⟩]
      (some id)).map (fun q => layers q.2) =
    some [([([2, 1], [1, 1])], (99 / 100 : ℚ), 1 / 100), ([([1, 1], [0, 0])], 1 / 2, 1 / 2)] := by
  decide +kernel

/-- C50_picture: a path with another number of points makes `draw` raise -/
example : (AbsPaths.draw (K := ℚ) (fun n : Nat => (n : ℤ)) Palette.initial id (some [0, 0, 0]) 3 480
    ⟨none, none, fun _ => [[[1, 1], [5, 5]]]⟩ [⟨some 1, [], [[(2 : ℚ), 0]], [true]⟩] (some id)).isNone := by
  decide +kernel

end Norfair.Props
