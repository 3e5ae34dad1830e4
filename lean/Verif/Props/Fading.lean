import Verif.Props.Pixels

/-!
Pixels of paths and grids (C89).
-/

set_option linter.unusedSectionVars false

namespace Norfair.Props

open Norfair Norfair.Spec

variable {K H : Type} [Field K] [LinearOrder K] [IsStrictOrderedRing K] [FloorRing K]

/-! ### `Paths` -/

theorem circlesAt_px (ras : Raster K) (shape : List Nat) (frame : Pic) (px : ℤ × ℤ) (r t : ℤ) (col : Color)
    (ps : List (List K)) (h : ∀ p ∈ ps, ras.circle (p.map truncInt) r t px ≠ true) (c : Canvas K) :
    (circlesAt r t col ps c).render ras shape frame px = c.render ras shape frame px := by
  unfold circlesAt
  induction ps generalizing c with
  | nil => rfl
  | cons p ps ih =>
    rw [List.foldl_cons, ih (fun p hp => h p (List.mem_cons_of_mem _ hp))]
    funext ch
    simp only [Canvas.render, paint]
    rw [if_neg (h p (List.mem_cons_self ..))]

/-- no point of the frame is drawn on the pixel -/
def PathMisses (ras : Raster K) (get : List (List K) → List (List K)) (r t : ℤ) (px : ℤ × ℤ)
    (objs : List (PathObj K H)) : Prop :=
  ∀ o ∈ objs, ∀ p ∈ get o.estimate, ras.circle (p.map truncInt) r t px ≠ true

theorem pathsLoop_px (ras : Raster K) (shape : List Nat) (frame : Pic) (px : ℤ × ℤ) (hash : H → ℤ) (pal : Palette)
    (get : List (List K) → List (List K)) (color : Option Color) (r t : ℤ) (objs : List (PathObj K H))
    (h : PathMisses ras get r t px objs) : ∀ m m' : Canvas K,
    Paths.loop hash pal get color r t objs m = some m' →
    m'.render ras shape frame px = m.render ras shape frame px := by
  induction objs with
  | nil => intro m m' hl; cases hl; rfl
  | cons o os ih =>
    intro m m' hl
    simp only [Norfair.Paths.loop] at hl
    split at hl
    · cases hl
    · rw [ih (fun o ho => h o (List.mem_cons_of_mem _ ho)) _ _ hl,
        circlesAt_px ras shape frame px r t _ _ (h o (List.mem_cons_self ..))]

/-- one attenuation of a value: multiplied by the factor and cut off -/
def dim (att : K) (v : Nat) : Nat := ⌊(v : K) * att⌋₊

theorem scaled_px (ras : Raster K) (shape : List Nat) (frame : Pic) (px : ℤ × ℤ) (ch : Nat) (m : Canvas K) (att : K)
    (h0 : 0 ≤ att) (h1 : att ≤ 1) (hm : m.render ras shape frame px ch ≤ 255) :
    (m.scaled att).render ras shape frame px ch = dim att (m.render ras shape frame px ch) := by
  simp only [Canvas.render]
  generalize m.render ras shape frame px ch = v at hm
  have hn : 0 ≤ (v : K) * att := mul_nonneg (Nat.cast_nonneg _) h0
  have hle : (v : K) * att ≤ v := mul_le_of_le_one_right (Nat.cast_nonneg _) h1
  have hfl : ⌊(v : K) * att⌋ ≤ v := by
    have := Int.floor_le_floor hle
    simpa using this
  have h0' : 0 ≤ ⌊(v : K) * att⌋ := Int.floor_nonneg.mpr hn
  rw [truncInt, if_pos hn, Int.emod_eq_of_lt h0' (by omega)]
  unfold dim
  exact (Int.floor_toNat _)

/-- one call of `Paths.draw` after the first: the pixel fades -/
theorem pathsDraw_px (ras : Raster K) (shape : List Nat) (frame : Pic) (px : ℤ × ℤ) (ch : Nat)
    (hf : frame px ch ≤ 255) (hash : H → ℤ) (pal : Palette) (get : List (List K) → List (List K))
    (color : Option Color) (att : K) (h0 : 0 ≤ att) (h1 : att ≤ 1) (height : Nat) (s s' : Paths K) (m c : Canvas K)
    (r t : ℤ) (hm : s.mask = some m) (hr : s.radius = some r) (ht : s.thickness = some t)
    (objs : List (PathObj K H)) (ho : PathMisses ras get r t px objs)
    (h : Paths.draw hash pal get color att height s objs = some (s', c)) :
    ∃ m', s'.mask = some m' ∧ s'.radius = some r ∧ s'.thickness = some t ∧
      m'.render ras shape frame px ch = dim att (m.render ras shape frame px ch) ∧ c = m'.blend .base 1 1 := by
  unfold Paths.draw at h
  simp only [hm, hr, ht, Option.getD_some] at h
  split at h
  · cases h
  · rename_i m' hl
    simp only [Option.some.injEq, Prod.mk.injEq] at h
    obtain ⟨rfl, rfl⟩ := h
    refine ⟨m', rfl, rfl, rfl, ?_, rfl⟩
    rw [pathsLoop_px ras shape frame px hash pal get color r t objs ho _ _ hl]
    exact scaled_px ras shape frame px ch m att h0 h1 (C89_range ras shape frame px ch hf m)

/-- C89: while no path goes over a pixel, its value on the mask of `Paths` is multiplied by the attenuation factor
and cut off, once per frame. -/
theorem C89_fades (ras : Raster K) (shape : List Nat) (frame : Pic) (px : ℤ × ℤ) (ch : Nat)
    (hf : frame px ch ≤ 255) (hash : H → ℤ) (pal : Palette) (get : List (List K) → List (List K))
    (color : Option Color) (att : K) (h0 : 0 ≤ att) (h1 : att ≤ 1) (r t : ℤ)
    (gs : List (Nat × List (PathObj K H))) (hgs : ∀ g ∈ gs, PathMisses ras get r t px g.2) :
    ∀ (s s' : Paths K) (m : Canvas K), s.mask = some m → s.radius = some r → s.thickness = some t →
    Paths.run hash pal get color att s gs = some s' →
    ∃ m', s'.mask = some m' ∧ s'.radius = some r ∧ s'.thickness = some t ∧
      m'.render ras shape frame px ch = (dim att)^[gs.length] (m.render ras shape frame px ch) := by
  induction gs with
  | nil => intro s s' m hm hr ht h; cases h; exact ⟨m, hm, hr, ht, rfl⟩
  | cons g gs ih =>
    intro s s' m hm hr ht h
    rw [Paths.run] at h
    split at h
    · cases h
    · rename_i s1 c1 hd
      obtain ⟨m1, e1, e2, e3, e4, -⟩ := pathsDraw_px ras shape frame px ch hf hash pal get color att h0 h1 g.1 s s1 m
        c1 r t hm hr ht g.2 (hgs g (List.mem_cons_self ..)) hd
      obtain ⟨m', f1, f2, f3, f4⟩ := ih (fun g hg => hgs g (List.mem_cons_of_mem _ hg)) s1 s' m1 e1 e2 e3 h
      refine ⟨m', f1, f2, f3, ?_⟩
      rw [f4, e4, List.length_cons, Function.iterate_succ_apply]

theorem dim_lt (att : K) (h0 : 0 ≤ att) (h1 : att < 1) (v : Nat) : dim att v ≤ v - 1 := by
  unfold dim
  rcases Nat.eq_zero_or_pos v with rfl | hv
  · simp
  · have : ⌊(v : K) * att⌋₊ < v := by
      rw [Nat.floor_lt (mul_nonneg (Nat.cast_nonneg _) h0)]
      exact mul_lt_of_lt_one_right (by exact_mod_cast hv) h1
    omega

/-- C89: faded values: at least one less in each frame, and not above the power of the attenuation factor; unchanged
without attenuation. -/
theorem C89_speed (att : K) (h0 : 0 ≤ att) (h1 : att ≤ 1) (n v : Nat) :
    ((dim att)^[n] v : K) ≤ v * att ^ n ∧ (att < 1 → (dim att)^[n] v ≤ v - n) ∧ (att = 1 → (dim att)^[n] v = v) := by
  induction n with
  | zero => simp
  | succ n ih =>
    obtain ⟨i1, i2, i3⟩ := ih
    rw [Function.iterate_succ_apply']
    refine ⟨?_, ?_, ?_⟩
    · have : ((dim att ((dim att)^[n] v) : Nat) : K) ≤ (((dim att)^[n] v : Nat) : K) * att :=
        Nat.floor_le (mul_nonneg (Nat.cast_nonneg _) h0)
      refine this.trans ?_
      rw [pow_succ, ← mul_assoc]
      exact mul_le_mul_of_nonneg_right i1 h0
    · intro h
      have := dim_lt att h0 h ((dim att)^[n] v)
      have := i2 h
      omega
    · intro h
      rw [i3 h, h]
      simp [dim]

/-- the size of the circles is known after the first frame -/
theorem pathsRun_size (hash : H → ℤ) (pal : Palette) (get : List (List K) → List (List K)) (color : Option Color)
    (att : K) (radius thickness : Option ℤ) (f : Nat × List (PathObj K H)) (fs : List (Nat × List (PathObj K H)))
    (s : Paths K) (h : Paths.run hash pal get color att ⟨radius, thickness, none⟩ (f :: fs) = some s) :
    ∃ m, s.mask = some m ∧ s.radius = some (radius.getD (truncInt (max ((f.1 : K) / 100 * (7 / 10)) 1))) ∧
      s.thickness = some (thickness.getD (truncInt (max ((f.1 : K) / 100 / 7) 1))) := by
  have one : ∀ (s s' : Paths K) (g : Nat × List (PathObj K H)) c m,
      Paths.draw hash pal get color att g.1 s g.2 = some (s', c) → s.mask = some m →
      (∃ m', s'.mask = some m') ∧ s'.radius = s.radius ∧ s'.thickness = s.thickness := by
    intro s s' g c m h hm
    unfold Paths.draw at h
    simp only [hm, Option.getD_some] at h
    split at h
    · cases h
    · simp only [Option.some.injEq, Prod.mk.injEq] at h
      obtain ⟨rfl, -⟩ := h
      exact ⟨⟨_, rfl⟩, rfl, rfl⟩
  have run : ∀ (gs : List (Nat × List (PathObj K H))) (s s' : Paths K) m,
      Paths.run hash pal get color att s gs = some s' → s.mask = some m →
      (∃ m', s'.mask = some m') ∧ s'.radius = s.radius ∧ s'.thickness = s.thickness := by
    intro gs
    induction gs with
    | nil => intro s s' m h hm; cases h; exact ⟨⟨m, hm⟩, rfl, rfl⟩
    | cons g gs ih =>
      intro s s' m h hm
      rw [Paths.run] at h
      split at h
      · cases h
      · rename_i s1 c1 hd
        obtain ⟨⟨m1, e1⟩, e2, e3⟩ := one s s1 g c1 m hd hm
        obtain ⟨f1, f2, f3⟩ := ih s1 s' m1 h e1
        exact ⟨f1, f2.trans e2, f3.trans e3⟩
  rw [Paths.run] at h
  split at h
  · cases h
  · rename_i s1 c1 hd
    unfold Paths.draw at hd
    simp only [Option.getD_some] at hd
    split at hd
    · cases hd
    · simp only [Option.some.injEq, Prod.mk.injEq] at hd
      obtain ⟨rfl, -⟩ := hd
      obtain ⟨⟨m, e1⟩, e2, e3⟩ := run fs _ s _ h rfl
      exact ⟨m, e1, e2, e3⟩

/-- C89: what `Paths.draw` returns: the values of the mask are added to those of the frame, up to 255. In
particular nothing gets darker, and a pixel at which the mask is black is the one of the frame. -/
theorem C89_returned (ras : Raster K) (shape : List Nat) (frame : Pic) (px : ℤ × ℤ) (ch : Nat)
    (hf : frame px ch ≤ 255) (hash : H → ℤ) (pal : Palette) (get : List (List K) → List (List K))
    (color : Option Color) (att : K) (height : Nat) (s s' : Paths K) (objs : List (PathObj K H)) (c : Canvas K)
    (h : Paths.draw hash pal get color att height s objs = some (s', c)) :
    ∃ m, s'.mask = some m ∧
      c.render ras shape frame px ch = min (m.render ras shape frame px ch + frame px ch) 255 ∧
      frame px ch ≤ c.render ras shape frame px ch := by
  obtain ⟨m, e, rfl⟩ := C70_returned hash pal get color att height s s' objs c h
  have e2 : (m.blend .base 1 1).render ras shape frame px ch =
      min (m.render ras shape frame px ch + frame px ch) 255 := by
    simp only [Canvas.render, one_mul]
    rw [← Nat.cast_add, around_natCast, toByte_nat]
  exact ⟨m, e, e2, by rw [e2]; omega⟩

/-- C89: with any attenuation (a factor below 1), a path is gone from a pixel after at most 255 frames in which no
path goes over it, whatever was drawn before: the pixel is the one of the frame. -/
theorem C89_erased (ras : Raster K) (shape : List Nat) (frame : Pic) (px : ℤ × ℤ) (ch : Nat)
    (hf : frame px ch ≤ 255) (hash : H → ℤ) (pal : Palette) (get : List (List K) → List (List K))
    (color : Option Color) (att : K) (h0 : 0 ≤ att) (h1 : att < 1) (radius thickness : Option ℤ)
    (f : Nat × List (PathObj K H)) (fs gs : List (Nat × List (PathObj K H))) (r t : ℤ)
    (hr : r = radius.getD (truncInt (max ((f.1 : K) / 100 * (7 / 10)) 1)))
    (ht : t = thickness.getD (truncInt (max ((f.1 : K) / 100 / 7) 1))) (s s' : Paths K)
    (h : Paths.run hash pal get color att ⟨radius, thickness, none⟩ (f :: fs ++ gs) = some s)
    (hgs : ∀ g ∈ gs, PathMisses ras get r t px g.2) (height : Nat) (objs : List (PathObj K H)) (c : Canvas K)
    (hd : Paths.draw hash pal get color att height s objs = some (s', c))
    (ho : PathMisses ras get r t px objs) (hlen : 255 ≤ gs.length + 1) :
    c.render ras shape frame px ch = frame px ch := by
  rw [pathsRun_append] at h
  cases hs0 : Paths.run hash pal get color att ⟨radius, thickness, none⟩ (f :: fs) with
  | none => rw [hs0] at h; cases h
  | some s0 =>
    rw [hs0, Option.bind_some] at h
    obtain ⟨m0, e1, e2, e3⟩ := pathsRun_size hash pal get color att radius thickness f fs s0 hs0
    rw [← hr] at e2
    rw [← ht] at e3
    obtain ⟨m1, f1, f2, f3, f4⟩ := C89_fades ras shape frame px ch hf hash pal get color att h0 h1.le r t gs hgs s0 s
      m0 e1 e2 e3 h
    obtain ⟨m2, g1, -, -, g4, -⟩ := pathsDraw_px ras shape frame px ch hf hash pal get color att h0 h1.le height s s'
      m1 c r t f1 f2 f3 objs ho hd
    obtain ⟨m3, k1, k2, -⟩ := C89_returned ras shape frame px ch hf hash pal get color att height s s' objs c hd
    rw [g1, Option.some.injEq] at k1
    subst k1
    rw [f4, ← Function.iterate_succ_apply' (dim att), Nat.succ_eq_add_one] at g4
    have b1 := (C89_speed att h0 h1.le (gs.length + 1) (m0.render ras shape frame px ch)).2.1 h1
    have b2 := C89_range ras shape frame px ch hf m0
    rw [k2, g4]
    omega

theorem dim_mono (att : K) (h0 : 0 ≤ att) {v w : Nat} (h : v ≤ w) : dim att v ≤ dim att w :=
  Nat.floor_le_floor (mul_le_mul_of_nonneg_right (by exact_mod_cast h) h0)

/-- C89: with the default attenuation even a white path is gone after 168 frames, and not before. -/
theorem C89_default_attenuation (v : Nat) (hv : v ≤ 255) :
    (dim (1 - 1 / 100 : ℚ))^[168] v = 0 ∧ (dim (1 - 1 / 100 : ℚ))^[167] 255 = 1 := by
  constructor
  · have h1 : (dim (1 - 1 / 100 : ℚ))^[168] v ≤ (dim (1 - 1 / 100 : ℚ))^[168] 255 :=
      (Monotone.iterate (fun _ _ h => dim_mono _ (by norm_num) h) 168) hv
    have h2 : (dim (1 - 1 / 100 : ℚ))^[168] 255 = 0 := by decide +kernel
    omega
  · decide +kernel

/-! ### `AbsolutePaths` -/

theorem circlesAt_strokes (r t : ℤ) (col : Color) (ps : List (List K)) (c : Canvas K) :
    strokes (circlesAt r t col ps c) = strokes c ++ ps.map fun p => .circle (p.map truncInt) r t col := by
  unfold circlesAt
  induction ps generalizing c with
  | nil => simp
  | cons p ps ih => rw [List.foldl_cons, ih]; simp [strokes]

theorem circlesAt_onFrame (r t : ℤ) (col : Color) (ps : List (List K)) (c : Canvas K) (h : OnFrame c) :
    OnFrame (circlesAt r t col ps c) := by
  unfold circlesAt
  induction ps generalizing c with
  | nil => exact h
  | cons p ps ih => exact ih _ h

theorem pathLines_strokes (t : ℤ) (col : Color) (last ps : List (List K)) : ∀ (c c' : Canvas K),
    pathLines t col last ps c = some c' →
    (OnFrame c → OnFrame c') ∧
    strokes c' = strokes c ++ (last.zip ps).map fun p => .line (p.1.map truncInt) (p.2.map truncInt) t col := by
  induction ps generalizing last with
  | nil => intro c c' h; cases last <;> (cases h; exact ⟨id, by simp⟩)
  | cons p ps ih =>
    intro c c' h
    cases last with
    | nil => cases h
    | cons l last =>
      obtain ⟨h1, h2⟩ := ih last _ _ h
      refine ⟨fun hc => h1 hc, ?_⟩
      rw [h2]
      simp [strokes]

/-- what `AbsolutePaths` draws for an object: circles at the points, lines between the points of consecutive frames -/
inductive PathStroke (f : List (List K) → List (List K)) (r t : ℤ) (pts : List (List K))
    (past : List (List (List K))) : Stroke K → Prop
  | circle {p col} (hp : p ∈ f pts) : PathStroke f r t pts past (.circle (p.map truncInt) r t col)
  | line {new old p q col} (h : (new, old) ∈ (pts :: past).zip past) (hp : (p, q) ∈ (f new).zip (f old)) :
      PathStroke f r t pts past (.line (p.map truncInt) (q.map truncInt) t col)

theorem pathSteps_strokes (f : List (List K) → List (List K)) (t : ℤ) (col : Color) (alphas : List K)
    (hal : ∀ x ∈ alphas, 0 ≤ x ∧ x ≤ 1) (past : List (List (List K))) :
    ∀ (i : Nat) (last : List (List K)) (c c' : Canvas K), pathSteps alphas f t col i last past c = some c' →
    (OnFrame c → OnFrame c') ∧ ∀ s ∈ strokes c', s ∈ strokes c ∨ ∃ new old p q,
      (new, old) ∈ (last :: past).zip past ∧ (p, q) ∈ (f new).zip (f old) ∧
        s = .line (p.map truncInt) (q.map truncInt) t col := by
  induction past with
  | nil => intro i last c c' h; cases h; exact ⟨id, fun s hs => Or.inl hs⟩
  | cons p past ih =>
    intro i last c c' h
    rw [pathSteps] at h
    split at h
    · cases h
    · rename_i ov hov
      split at h
      · cases h
      · rename_i x hx
        obtain ⟨h1, h2⟩ := ih _ _ _ _ h
        obtain ⟨h3, h4⟩ := pathLines_strokes t col _ _ _ _ hov
        have hxm := hal x (List.mem_of_getElem? hx)
        refine ⟨fun hc => h1 ⟨h3 hc, hc, hxm.1, by linarith [hxm.2], by ring⟩, ?_⟩
        intro s hs
        rcases h2 s hs with h5 | ⟨new, old, q1, q2, h5, h6, h7⟩
        · simp only [strokes, List.mem_append] at h5
          rcases h5 with h5 | h5
          · exact Or.inl h5
          · rw [h4, List.mem_append] at h5
            rcases h5 with h5 | h5
            · exact Or.inl h5
            · obtain ⟨q, hq, rfl⟩ := List.mem_map.mp h5
              exact Or.inr ⟨last, p, q.1, q.2, by simp, hq, rfl⟩
        · exact Or.inr ⟨new, old, q1, q2, by rw [List.zip_cons_cons]; exact List.mem_cons_of_mem _ h5, h6, h7⟩

theorem pathAlphas_mem (m : Nat) (x : K) (h : x ∈ pathAlphas m) : 0 ≤ x ∧ x ≤ 1 := by
  unfold pathAlphas at h
  obtain ⟨i, hi, rfl⟩ := List.mem_map.mp h
  have hi : i < m := by simpa using hi
  have h0 : (0 : K) ≤ ((m - 1 : Nat) : K) := Nat.cast_nonneg _
  have hile : (i : K) ≤ ((m - 1 : Nat) : K) := by exact_mod_cast (show i ≤ m - 1 by omega)
  have hprod : (i : K) * ((98 / 100) / ((m - 1 : Nat) : K)) ≤ 98 / 100 ∧
      0 ≤ (i : K) * ((98 / 100) / ((m - 1 : Nat) : K)) := by
    refine ⟨?_, mul_nonneg (Nat.cast_nonneg _) (div_nonneg (by norm_num) h0)⟩
    rcases eq_or_lt_of_le h0 with h | h
    · rw [← h]; norm_num
    · rw [mul_div_assoc', div_le_iff₀ h]
      nlinarith
  constructor <;> linarith [hprod.1, hprod.2]

theorem absLoop_strokes [DecidableEq H] (hash : H → ℤ) (pal : Palette) (get : List (List K) → List (List K))
    (color : Option Color) (m : Nat) (f : List (List K) → List (List K)) (r t : ℤ) (objs : List (PathObj K H))
    (hnd : (objs.map (·.id)).Nodup) :
    ∀ (past past' : Option H → List (List (List K))) (c c' : Canvas K),
    AbsPaths.loop hash pal get color m (some f) r t objs past c = some (past', c') →
    (OnFrame c → OnFrame c') ∧ ∀ s ∈ strokes c', s ∈ strokes c ∨ ∃ o ∈ objs, true ∈ o.live ∧
      PathStroke f r t (get o.absolute) (past o.id) s := by
  induction objs with
  | nil => intro past past' c c' h; cases h; exact ⟨id, fun s hs => Or.inl hs⟩
  | cons o os ih =>
    intro past past' c c' h
    rw [List.map_cons, List.nodup_cons] at hnd
    simp only [AbsPaths.loop] at h
    split at h
    · obtain ⟨h1, h2⟩ := ih hnd.2 _ _ _ _ h
      refine ⟨h1, fun s hs => ?_⟩
      rcases h2 s hs with h3 | ⟨o', ho', h4, h5⟩
      · exact Or.inl h3
      · exact Or.inr ⟨o', List.mem_cons_of_mem _ ho', h4, h5⟩
    · rename_i hlive
      split at h
      · cases h
      · rename_i col _
        split at h
        · cases h
        · rename_i c1 hc1
          obtain ⟨h1, h2⟩ := ih hnd.2 _ _ _ _ h
          obtain ⟨h3, h4⟩ := pathSteps_strokes f t col _ (fun x hx => pathAlphas_mem m x hx) _ _ _ _ _ hc1
          refine ⟨fun hc => h1 (h3 (circlesAt_onFrame r t col _ c hc)), fun s hs => ?_⟩
          have hl : true ∈ o.live := by simpa using hlive
          rcases h2 s hs with h5 | ⟨o', ho', h5, h6⟩
          · rcases h4 s h5 with h6 | ⟨new, old, p, q, h6, h7, rfl⟩
            · rw [circlesAt_strokes, List.mem_append] at h6
              rcases h6 with h6 | h6
              · exact Or.inl h6
              · obtain ⟨p, hp, rfl⟩ := List.mem_map.mp h6
                exact Or.inr ⟨o, List.mem_cons_self .., hl, .circle hp⟩
            · exact Or.inr ⟨o, List.mem_cons_self .., hl, .line h6 h7⟩
          · refine Or.inr ⟨o', List.mem_cons_of_mem _ ho', h5, ?_⟩
            have hne : o'.id ≠ o.id := fun e => hnd.1 (List.mem_map.mpr ⟨o', ho', e⟩)
            rwa [Function.update_of_ne hne] at h6

/-- C89: `AbsolutePaths.draw` changes no pixel that is not covered by the circle at a point of a live object or by a
line of its path, however often pictures are blended. -/
theorem C89_absolute_paths [DecidableEq H] (ras : Raster K) (shape : List Nat) (frame : Pic) (px : ℤ × ℤ) (ch : Nat)
    (hf : frame px ch ≤ 255) (hash : H → ℤ) (pal : Palette) (get : List (List K) → List (List K))
    (color : Option Color) (m height : Nat) (f : List (List K) → List (List K)) (s s' : AbsPaths K H)
    (objs : List (PathObj K H)) (hnd : (objs.map (·.id)).Nodup) (c : Canvas K)
    (h : AbsPaths.draw hash pal get color m height s objs (some f) = some (s', c)) (r t : ℤ)
    (hr : r = s.radius.getD (truncInt (max ((height : K) / 100 * (7 / 10)) 1)))
    (ht : t = s.thickness.getD (truncInt (max ((height : K) / 100 / 7) 1)))
    (hout : ∀ o ∈ objs, true ∈ o.live → ∀ x, PathStroke f r t (get o.absolute) (s.past o.id) x →
      ¬ x.Covers ras shape px) :
    c.render ras shape frame px ch = frame px ch := by
  unfold AbsPaths.draw at h
  simp only [← hr, ← ht] at h
  split at h
  · cases h
  · rename_i past' c' hl
    simp only [Option.some.injEq, Prod.mk.injEq] at h
    obtain ⟨-, rfl⟩ := h
    obtain ⟨h1, h2⟩ := absLoop_strokes hash pal get color m f r t objs hnd _ _ _ _ hl
    refine C89_untouched ras shape frame px ch hf c' (h1 trivial) fun x hx => ?_
    rcases h2 x hx with h3 | ⟨o, ho, h4, h5⟩
    · cases h3
    · exact hout o ho h4 x h5

/-! ### Grids -/

/-- C89: `draw_absolute_grid` changes no pixel that is not on one of the two lines of a cross in the picture. -/
theorem C89_grid (ras : Raster K) (shape : List Nat) (frame : Pic) (px : ℤ × ℤ) (grid : List (K × K))
    (absToRel : Option (List (K × K) → List (K × K))) (h w : Nat) (r t : ℤ) (color : Color)
    (hout : ∀ p ∈ (absToRel.elim grid fun f => f grid), 0 ≤ p.1 → p.1 ≤ (w : K) → 0 ≤ p.2 →
      p.2 ≤ (h : K) →
      ras.line [truncInt p.1, truncInt p.2 - r] [truncInt p.1, truncInt p.2 + r] t px ≠ true ∧
      ras.line [truncInt p.1 - r, truncInt p.2] [truncInt p.1 + r, truncInt p.2] t px ≠ true) :
    (drawAbsoluteGrid grid absToRel h w r t color).render ras shape frame px = frame px := by
  have key : ∀ (ps : List (K × K)) (c : Canvas K),
      (∀ p ∈ ps, ras.line [truncInt p.1, truncInt p.2 - r] [truncInt p.1, truncInt p.2 + r] t px ≠ true ∧
        ras.line [truncInt p.1 - r, truncInt p.2] [truncInt p.1 + r, truncInt p.2] t px ≠ true) →
      (ps.foldl (fun c p => c.cross (truncInt p.1) (truncInt p.2) r t color) c).render ras shape frame px =
        c.render ras shape frame px := by
    intro ps
    induction ps with
    | nil => intro c _; rfl
    | cons p ps ih =>
      intro c hp
      rw [List.foldl_cons, ih _ fun q hq => hp q (List.mem_cons_of_mem _ hq)]
      obtain ⟨h1, h2⟩ := hp p (List.mem_cons_self ..)
      funext ch
      simp only [Canvas.cross, Canvas.render, paint]
      rw [if_neg h2, if_neg h1]
  unfold drawAbsoluteGrid
  refine key _ .base ?_
  intro p hp
  obtain ⟨h1, h2⟩ := List.mem_filter.mp hp
  simp only [Bool.and_eq_true, decide_eq_true_eq] at h2
  exact hout p (by cases absToRel <;> exact h1) h2.2.1 h2.1.1 h2.2.2 h2.1.2

/-! ### Examples -/

/-- a simple OpenCV: circles are single pixels, lines and rectangles their corners, a text is a pixel that becomes
white -/
def toyRaster : Raster ℚ where
  circle := fun pos _ _ px => decide (pos = [px.1, px.2])
  line := fun a b _ px => decide (a = [px.1, px.2] ∨ b = [px.1, px.2])
  rectangle := fun a b _ px => decide (a = [px.1, px.2] ∨ b = [px.1, px.2])
  glyph := fun t px => decide (t.org = px)
  ink := fun _ _ _ _ => 255
  nan := [0, 0]
  ink_le := by intros; exact le_refl _

/-- ids are written with as many letters -/
def dEnv' : DrawEnv ℚ Nat := ⟨fun i => i, fun i => List.replicate i 'i', fun _ => [], Palette.initial, fun _ => 0⟩

/-- a gray frame -/
def grayFrame : Pic := fun _ _ => 100

/-- one object at (1, 2) in the first frame, at (5, 5) in the next two: the path at (1, 2), of color 200, fades to
198 and 196 on the mask, and the frame shines through; (7, 7) is not touched -/
example :
    let fs : List (Nat × List (PathObj ℚ Nat)) := [(480, [⟨some 1, [[1, 2]], [], []⟩]),
      (480, [⟨some 1, [[5, 5]], [], []⟩]), (480, [⟨some 1, [[5, 5]], [], []⟩])]
    (Paths.run (fun n : Nat => (n : ℤ)) Palette.initial meanPoint (some [200]) (99 / 100 : ℚ)
      ⟨some 2, some 1, none⟩ fs).bind (·.mask) |>.map (fun m =>
        (m.render toyRaster [480, 640, 3] grayFrame (1, 2) 0, m.render toyRaster [480, 640, 3] grayFrame (5, 5) 0,
          (m.blend .base 1 1).render toyRaster [480, 640, 3] grayFrame (1, 2) 0,
          (m.blend .base 1 1).render toyRaster [480, 640, 3] grayFrame (7, 7) 0)) = some (196, 200, 255, 100) := by
  decide +kernel

/-- hypotheses of `C89_fades` and `C89_erased`: the circle at (5, 5) misses (1, 2) -/
example : PathMisses (H := Nat) toyRaster meanPoint 2 1 (1, 2) [⟨some 1, [[5, 5]], [], []⟩] := by
  intro o ho p hp
  simp only [List.mem_singleton] at ho
  subst ho
  have : p = [5, 5] := by
    have e : (meanPoint [[5, 5]] : List (List ℚ)) = [[5, 5]] := by decide +kernel
    rw [e] at hp
    simpa using hp
  subst this
  decide +kernel

/-- `C89_erased` for a history of one frame and 254 frames elsewhere; the next frame is the 255th -/
example : ((Paths.run (fun n : Nat => (n : ℤ)) Palette.initial (fun p => p) (some [255]) (999 / 1000 : ℚ)
      ⟨some 2, some 1, none⟩ ((480, [⟨some 1, [[1, 2]], [], []⟩]) ::
        List.replicate 254 (480, [⟨some (1 : Nat), [[5, 5]], [], []⟩]))).bind (·.mask)).map (fun m =>
        m.render toyRaster [480, 640, 3] grayFrame (1, 2) 0) = some 1 := by
  decide +kernel

/-- two boxes of which the second one covers a corner of the first -/
def cornerBoxes : List (Drawable ℚ Nat) :=
  [⟨[[10, 10], [30, 40]], some 1, none, none, [true, true]⟩, ⟨[[30, 40], [50, 60]], some 2, none, none, [true, true]⟩]

/-- the common corner has the color of the second box, the other one the color of the first; the pixel at (0, 0) is
the one of the frame -/
example : (drawBoxes dEnv' [480, 640, 3] {} (some cornerBoxes)).map (fun c =>
      [(30, 40), (50, 60), (0, 0)].map fun px => c.render toyRaster [480, 640, 3] grayFrame px 0) =
    some [Palette.initial.choose (some 2) |>.map (fun c => toByte (c.getD 0 0)) |>.getD 0,
      Palette.initial.choose (some 2) |>.map (fun c => toByte (c.getD 0 0)) |>.getD 0, 100] := by
  decide +kernel

/-- hypotheses of `C89_top_box` and `C89_draw_boxes` -/
example : LineWidth [480, 640, 3] ({} : DrawBoxesArgs ℚ) 1 ∧ BoxCovers toyRaster 1 (30, 40) cornerBoxes[1] ∧
    BoxCovers toyRaster 1 (30, 40) cornerBoxes[0] ∧ ¬ BoxCovers toyRaster 1 (0, 0) cornerBoxes[0] ∧
    (∀ col, ∀ u ∈ boxTexts toyRaster dEnv' [480, 640, 3] {} 1 cornerBoxes[1] col,
      toyRaster.glyph u (30, 40) ≠ true) := by
  refine ⟨⟨by simp, by simp, fun _ _ => ?_⟩, (by unfold BoxCovers; decide +kernel),
    (by unfold BoxCovers; decide +kernel), (by unfold BoxCovers; decide +kernel), ?_⟩
  · decide +kernel
  · intro col u hu
    have h1 : (boxTexts toyRaster dEnv' [480, 640, 3] {} 1 cornerBoxes[1] col).map (·.org) =
        (boxTexts toyRaster dEnv' [480, 640, 3] {} 1 cornerBoxes[1] []).map (·.org) := by
      unfold boxTexts
      simp only
      split <;> rfl
    have h2 : (boxTexts toyRaster dEnv' [480, 640, 3] {} 1 cornerBoxes[1] []).map (·.org) = [(31, 40), (30, 39)] := by
      decide +kernel
    have h3 : u.org ∈ [((31 : ℤ), (40 : ℤ)), (30, 39)] := by
      rw [← h2, ← h1]
      exact List.mem_map_of_mem hu
    simp only [toyRaster, ne_eq, decide_eq_true_eq]
    intro h4
    rw [h4] at h3
    revert h3
    decide +kernel

/-- `draw_points`: the live point is drawn, the dead one is not; the text is at the live point, up and to the left by
the radius -/
example :
    let ds : List (Drawable ℚ Nat) := [⟨[[10, 10], [30, 40]], some 1, none, none, [true, false]⟩]
    (drawPoints dEnv' [480, 640, 3] { color := some (.tup [7, 8, 9]), radius := some 3 } (some ds)).map (fun c =>
      c.map fun c => [(10, 10), (30, 40), (7, 7), (8, 8), (0, 0)].map fun px =>
        c.render toyRaster [480, 640, 3] grayFrame px 0) = some (some [7, 100, 255, 255, 100]) := by
  decide +kernel

/-- hypotheses of `C89_draw_points`: the circle of the dead point does not matter -/
example : ¬ PointCovers (H := Nat) toyRaster true 3 (-1) (30, 40)
    ⟨[[10, 10], [30, 40]], some 1, none, none, [true, false]⟩ := by
  rintro ⟨q, hq, h1, h2⟩
  simp only [List.zip_cons_cons, List.zip_nil_right, List.mem_cons, List.not_mem_nil, or_false] at hq
  rcases hq with rfl | rfl
  · revert h2; decide +kernel
  · simp at h1

/-- `AbsolutePaths`: a point, the line to the point before, the frame elsewhere -/
example : (AbsPaths.draw (fun n : Nat => (n : ℤ)) Palette.initial (fun p => p) (some [200]) 20 480
      ⟨some 2, some 1, fun _ => [[[3, 3]]]⟩ [⟨some 1, [], [[5, 5]], [true]⟩] (some fun p => (p : List (List ℚ)))).map
      (fun r => [(5, 5), (3, 3), (7, 7)].map fun px => r.2.render toyRaster [480, 640, 3] grayFrame px 0) =
    some [200, 199, 100] := by
  decide +kernel

/-- `draw_absolute_grid`: the end of a line of a cross, and a pixel elsewhere -/
example : ([(5, 3), (7, 7)].map fun px => (drawAbsoluteGrid [((5 : ℚ), (5 : ℚ))] none 480 640 2 1 [9]).render
    toyRaster [480, 640, 3] grayFrame px 0) = [9, 100] := by
  decide +kernel

end Norfair.Props
