import Verif.Model.FixedCamera
import Verif.Props.CameraMotion
import Mathlib.Logic.Function.Iterate

/-!
`FixedCamera.adjust_frame` (C49).
-/

namespace Norfair.Props

open Norfair

variable {K Px : Type}

/-- Pixel `(i, j)` (row, column) of a frame drawn with its corner at `(oy, ox)` is at `(y, x)`. -/
def PixelAt (frame : Image Px) (oy ox : ℤ) (y x i j : Nat) : Prop :=
  i < frame.h ∧ j < frame.w ∧ (y : ℤ) = oy + i ∧ (x : ℤ) = ox + j

/-- The image `b` is the image `old` with the frame drawn over it, its corner at `(oy, ox)`, cropped if it
does not fit. -/
structure DrawnAt (b old frame : Image Px) (oy ox : ℤ) : Prop where
  h : b.h = old.h
  w : b.w = old.w
  inside : ∀ y x i j, y < b.h → x < b.w → PixelAt frame oy ox y x i j → b.px y x = frame.px i j
  outside : ∀ y x, y < b.h → x < b.w → (∀ i j, ¬ PixelAt frame oy ox y x i j) → b.px y x = old.px y x

theorem sliceLimit_nonneg {n : Nat} {i : ℤ} (h : 0 ≤ i) : sliceLimit n i = min i.toNat n := by
  unfold sliceLimit; rw [if_neg (by omega)]

theorem sliceLimit_max (n : Nat) (i : ℤ) : sliceLimit n (max i 0) = min i.toNat n := by
  rw [sliceLimit_nonneg (le_max_right _ _)]; omega

theorem assign_slice_drawn (bg frame : Image Px) (oy ox y0 y1 x0 x1 fy0 fy1 fx0 fx1 : ℤ)
    (hy : ∀ k : ℤ, (sliceLimit bg.h y0 ≤ k ∧ k < sliceLimit bg.h y1) ↔
      (0 ≤ k ∧ k < bg.h ∧ oy ≤ k ∧ k < oy + frame.h))
    (hx : ∀ k : ℤ, (sliceLimit bg.w x0 ≤ k ∧ k < sliceLimit bg.w x1) ↔
      (0 ≤ k ∧ k < bg.w ∧ ox ≤ k ∧ k < ox + frame.w))
    (sy : sliceLimit bg.h y1 - sliceLimit bg.h y0 = sliceLimit frame.h fy1 - sliceLimit frame.h fy0)
    (sx : sliceLimit bg.w x1 - sliceLimit bg.w x0 = sliceLimit frame.w fx1 - sliceLimit frame.w fx0)
    (ty : sliceLimit bg.h y0 < sliceLimit bg.h y1 →
      (sliceLimit frame.h fy0 : ℤ) + oy = sliceLimit bg.h y0)
    (tx : sliceLimit bg.w x0 < sliceLimit bg.w x1 →
      (sliceLimit frame.w fx0 : ℤ) + ox = sliceLimit bg.w x0) :
    ∃ b, bg.assign y0 y1 x0 x1 (frame.slice fy0 fy1 fx0 fx1) = some b ∧ DrawnAt b bg frame oy ox := by
  unfold Image.assign Image.slice
  simp only
  rw [if_pos ⟨sy, sx⟩]
  refine ⟨_, rfl, rfl, rfl, ?_, ?_⟩
  · intro y x i j hyb hxb ⟨hi, hj, ey, ex⟩
    have h1 := (hy y).mpr ⟨by omega, by exact_mod_cast hyb, by omega, by omega⟩
    have h2 := (hx x).mpr ⟨by omega, by exact_mod_cast hxb, by omega, by omega⟩
    have t1 := ty (by omega)
    have t2 := tx (by omega)
    simp only
    rw [if_pos ⟨by omega, by omega, by omega, by omega⟩]
    congr 1 <;> omega
  · intro y x hyb hxb hn
    simp only
    rw [if_neg]
    intro ⟨a1, a2, a3, a4⟩
    have h1 := (hy y).mp ⟨by exact_mod_cast a1, by exact_mod_cast a2⟩
    have h2 := (hx x).mp ⟨by exact_mod_cast a3, by exact_mod_cast a4⟩
    exact hn (y - oy).toNat (x - ox).toNat ⟨by omega, by omega, by omega, by omega⟩

section
variable [Field K] [LinearOrder K] [IsStrictOrderedRing K] [FloorRing K] [Zero Px]

/-- what `adjust_frame` does once the background is there -/
theorem adjustFrame_some (c : FixedCamera K Px) (frame bg : Image Px) (hb : c.prepare frame = some bg)
    (t : CoordTrans K) (oy ox : ℤ)
    (ey : around ((t.relToAbs ⟨1, 2, [((((bg.w / 2 : Nat) : ℤ) - ((frame.w / 2 : Nat) : ℤ) : ℤ) : K),
      ((((bg.h / 2 : Nat) : ℤ) - ((frame.h / 2 : Nat) : ℤ) : ℤ) : K)]⟩).data.getD 1 0) = oy)
    (ex : around ((t.relToAbs ⟨1, 2, [((((bg.w / 2 : Nat) : ℤ) - ((frame.w / 2 : Nat) : ℤ) : ℤ) : K),
      ((((bg.h / 2 : Nat) : ℤ) - ((frame.h / 2 : Nat) : ℤ) : ℤ) : K)]⟩).data.getD 0 0) = ox) :
    ∃ b, c.adjustFrame frame (some t) = some { c with background := some b } ∧
      DrawnAt b bg frame oy ox := by
  unfold FixedCamera.adjustFrame
  rw [hb]
  simp only [FixedCamera.place, ey, ex]
  split
  · obtain ⟨b, e, hd⟩ := assign_slice_drawn bg frame oy ox (max oy 0) (max (oy + frame.h) 0) (max ox 0)
      (max (ox + frame.w) 0) (max (-oy) 0) (max (min ((bg.h : ℤ) - oy) (oy + frame.h - oy)) 0)
      (max (-ox) 0) (max (min ((bg.w : ℤ) - ox) (ox + frame.w - ox)) 0)
      (by intro k; rw [sliceLimit_max, sliceLimit_max]; omega)
      (by intro k; rw [sliceLimit_max, sliceLimit_max]; omega)
      (by simp only [sliceLimit_max]; omega) (by simp only [sliceLimit_max]; omega)
      (by simp only [sliceLimit_max]; omega) (by simp only [sliceLimit_max]; omega)
    exact ⟨b, by rw [e]; rfl, hd⟩
  · rename_i h
    have e1 : sliceLimit bg.h oy = min oy.toNat bg.h := sliceLimit_nonneg (by omega)
    have e2 : sliceLimit bg.h (oy + frame.h) = min (oy + frame.h).toNat bg.h :=
      sliceLimit_nonneg (by omega)
    have e3 : sliceLimit bg.w ox = min ox.toNat bg.w := sliceLimit_nonneg (by omega)
    have e4 : sliceLimit bg.w (ox + frame.w) = min (ox + frame.w).toNat bg.w :=
      sliceLimit_nonneg (by omega)
    have e5 : sliceLimit frame.h 0 = min (0 : ℤ).toNat frame.h := sliceLimit_nonneg (by omega)
    have e6 : sliceLimit frame.h frame.h = min (frame.h : ℤ).toNat frame.h :=
      sliceLimit_nonneg (by omega)
    have e7 : sliceLimit frame.w 0 = min (0 : ℤ).toNat frame.w := sliceLimit_nonneg (by omega)
    have e8 : sliceLimit frame.w frame.w = min (frame.w : ℤ).toNat frame.w :=
      sliceLimit_nonneg (by omega)
    obtain ⟨b, e, hd⟩ := assign_slice_drawn bg frame oy ox oy (oy + frame.h) ox (ox + frame.w)
      0 frame.h 0 frame.w
      (by intro k; rw [e1, e2]; omega) (by intro k; rw [e3, e4]; omega)
      (by rw [e1, e2, e5, e6]; omega) (by rw [e3, e4, e7, e8]; omega)
      (by rw [e1, e2, e5]; omega) (by rw [e3, e4, e7]; omega)
    exact ⟨b, by rw [e]; rfl, hd⟩

omit [IsStrictOrderedRing K] [FloorRing K] [LinearOrder K] in
theorem translation_anchor (v : K × K) (x y : K) :
    ((translation [v.1, v.2]).relToAbs ⟨1, 2, [x, y]⟩).data = [x - v.1, y - v.2] := by
  simp [translation, List.mapIdx_cons]

/-- `z` is the integer nearest to `x`, the even one if there are two -/
def Nearest (x : K) (z : ℤ) : Prop := |x - (z : K)| ≤ 1 / 2 ∧ (|x - (z : K)| = 1 / 2 → z % 2 = 0)

omit [FloorRing K] in
theorem Nearest.unique {x : K} {a b : ℤ} (ha : Nearest x a) (hb : Nearest x b) : a = b := by
  have key : ∀ a b : ℤ, Nearest x a → Nearest x b → ¬ a < b := by
    intro a b ha hb hlt
    have h1 := abs_le.mp ha.1
    have h2 := abs_le.mp hb.1
    have h3 : (a : K) + 1 ≤ (b : K) := by exact_mod_cast hlt
    have e1 : x - (a : K) = 1 / 2 := by linarith [h1.1, h1.2, h2.1, h2.2]
    have e2 : x - (b : K) = -(1 / 2) := by linarith [h1.1, h1.2, h2.1, h2.2]
    have p1 := ha.2 (by rw [e1, abs_of_nonneg (by norm_num)])
    have p2 := hb.2 (by rw [e2, abs_neg, abs_of_nonneg (by norm_num)])
    have h4 : (b : K) = (a : K) + 1 := by linarith
    have h5 : b = a + 1 := by exact_mod_cast h4
    omega
  rcases lt_trichotomy a b with h | h | h
  · exact absurd h (key a b ha hb)
  · exact h
  · exact absurd h (key b a hb ha)

/-- `oy, ox` is the corner of the frame for the camera movement `v`: the frame is centred in the
background (up to half pixels), then moved back by the camera movement, then rounded. -/
def CornerAt (bh bw fh fw : Nat) (v : K × K) (oy ox : ℤ) : Prop :=
  Nearest ((((bh / 2 : Nat) : ℤ) - ((fh / 2 : Nat) : ℤ) : ℤ) - v.2) oy ∧
  Nearest ((((bw / 2 : Nat) : ℤ) - ((fw / 2 : Nat) : ℤ) : ℤ) - v.1) ox

/-- C49, first frame: a black background of the scaled size is made and the frame is drawn on it, cropped
where it does not fit. No movement and no size makes the call raise. -/
theorem C49_first_frame (scale : K) (hs : 0 ≤ scale) (att : Px → Px) (frame : Image Px) (v : K × K) :
    ∃ b oy ox bh bw, (FixedCamera.create scale att).adjustFrame frame (some (translation [v.1, v.2])) =
        some ⟨scale, att, some b⟩ ∧
      Nearest ((frame.h : K) * scale) (bh : Nat) ∧ Nearest ((frame.w : K) * scale) (bw : Nat) ∧
      CornerAt bh bw frame.h frame.w v oy ox ∧
      DrawnAt b ⟨bh, bw, fun _ _ => 0⟩ frame oy ox := by
  have nn : ∀ n : Nat, 0 ≤ around ((n : K) * scale) := by
    intro n
    have h := (abs_le.mp (C46_around ((n : K) * scale)).1).2
    have h0 : 0 ≤ (n : K) * scale := mul_nonneg (Nat.cast_nonneg n) hs
    by_contra hneg
    have : (around ((n : K) * scale) : K) ≤ -1 := by
      exact_mod_cast (by omega : around ((n : K) * scale) ≤ -1)
    linarith
  have hb : (FixedCamera.create scale att).prepare frame =
      some ⟨(around ((frame.h : K) * scale)).toNat, (around ((frame.w : K) * scale)).toNat,
        fun _ _ => 0⟩ := by
    unfold FixedCamera.prepare FixedCamera.create
    simp only
    rw [if_neg]
    have := nn frame.h
    have := nn frame.w
    omega
  obtain ⟨b, e, hd⟩ := adjustFrame_some _ frame _ hb (translation [v.1, v.2]) _ _ rfl rfl
  rw [translation_anchor] at hd
  refine ⟨b, _, _, _, _, e, ?_, ?_, ?_, hd⟩
  · rw [Int.toNat_of_nonneg (nn _)]; exact C46_around _
  · rw [Int.toNat_of_nonneg (nn _)]; exact C46_around _
  · exact ⟨C46_around _, C46_around _⟩

/-- C49, later frames: the old picture is attenuated and the frame is drawn over it. -/
theorem C49_next_frame (c : FixedCamera K Px) (old : Image Px) (hc : c.background = some old)
    (frame : Image Px) (v : K × K) :
    ∃ b oy ox, c.adjustFrame frame (some (translation [v.1, v.2])) =
        some { c with background := some b } ∧
      CornerAt old.h old.w frame.h frame.w v oy ox ∧
      DrawnAt b ⟨old.h, old.w, fun y x => c.att (old.px y x)⟩ frame oy ox := by
  have hb : c.prepare frame = some ⟨old.h, old.w, fun y x => c.att (old.px y x)⟩ := by
    unfold FixedCamera.prepare; rw [hc]
  obtain ⟨b, e, hd⟩ := adjustFrame_some _ frame _ hb (translation [v.1, v.2]) _ _ rfl rfl
  rw [translation_anchor] at hd
  exact ⟨b, _, _, e, ⟨C46_around _, C46_around _⟩, hd⟩

theorem corner_unique {bh bw fh fw : Nat} {v : ℤ × ℤ} {oy ox : ℤ}
    (h : CornerAt (K := K) bh bw fh fw (v.1, v.2) oy ox) :
    oy = (bh / 2 : Nat) - (fh / 2 : Nat) - v.2 ∧ ox = (bw / 2 : Nat) - (fw / 2 : Nat) - v.1 := by
  have key : ∀ a b : ℤ, Nearest (a : K) b → b = a := by
    intro a b hab
    exact hab.unique ⟨by simp, by simp⟩
  refine ⟨key _ _ ?_, key _ _ ?_⟩
  · have := h.1; push_cast at this ⊢; exact this
  · have := h.2; push_cast at this ⊢; exact this

/-- C49: for movements of whole pixels the corner is exactly the centred position minus the movement. -/
theorem C49_whole_pixels (bh bw fh fw : Nat) (v : ℤ × ℤ) (oy ox : ℤ) :
    CornerAt (K := K) bh bw fh fw (v.1, v.2) oy ox ↔
      oy = (bh / 2 : Nat) - (fh / 2 : Nat) - v.2 ∧ ox = (bw / 2 : Nat) - (fw / 2 : Nat) - v.1 := by
  refine ⟨corner_unique, ?_⟩
  rintro ⟨rfl, rfl⟩
  unfold CornerAt Nearest
  push_cast
  simp

/-- the frames given to the camera, with translations -/
def withMoves (fs : List (Image Px × (K × K))) : List (Image Px × Option (CoordTrans K)) :=
  fs.map fun f => (f.1, some (translation [f.2.1, f.2.2]))

omit [IsStrictOrderedRing K] in
theorem cameraRun_append (c : FixedCamera K Px) (l : List (Image Px × Option (CoordTrans K)))
    (m : List (Image Px × Option (CoordTrans K))) :
    c.run (l ++ m) = (c.run l).bind fun c => c.run m := by
  induction l generalizing c with
  | nil => rfl
  | cons f l ih =>
    simp only [List.cons_append, FixedCamera.run]
    cases c.adjustFrame f.1 f.2 with
    | none => rfl
    | some c' => simp [ih]

/-- the picture left after the frames `fs` were shown: at each pixel the last frame that covered it,
attenuated once for each frame after it; black if there was none -/
structure Shown (att : Px → Px) (b : Image Px) (fs : List (Image Px × (K × K))) : Prop where
  covered : ∀ pre f post y x i j oy ox, fs = pre ++ f :: post → y < b.h → x < b.w →
    CornerAt b.h b.w f.1.h f.1.w f.2 oy ox →
    PixelAt f.1 oy ox y x i j →
    (∀ g ∈ post, ∀ oy' ox', CornerAt b.h b.w g.1.h g.1.w g.2 oy' ox' →
      ∀ i j, ¬ PixelAt g.1 oy' ox' y x i j) →
    b.px y x = att^[post.length] (f.1.px i j)
  black : ∀ y x, y < b.h → x < b.w →
    (∀ g ∈ fs, ∀ oy' ox', CornerAt b.h b.w g.1.h g.1.w g.2 oy' ox' →
      ∀ i j, ¬ PixelAt g.1 oy' ox' y x i j) →
    b.px y x = att^[fs.length - 1] 0

theorem snoc_split {α : Type} {fs pre post : List α} {g f : α} (h : fs ++ [g] = pre ++ f :: post) :
    (post = [] ∧ fs = pre ∧ g = f) ∨ ∃ post', post = post' ++ [g] ∧ fs = pre ++ f :: post' := by
  rcases List.eq_nil_or_concat post with rfl | ⟨post', q, rfl⟩
  · obtain ⟨h1, h2⟩ := List.append_inj' h rfl
    exact Or.inl ⟨rfl, h1, by simpa using h2⟩
  · right
    rw [List.concat_eq_append] at *
    rw [show pre ++ f :: (post' ++ [q]) = (pre ++ f :: post') ++ [q] by simp] at h
    obtain ⟨h1, h2⟩ := List.append_inj' h rfl
    cases h2
    exact ⟨post', rfl, h1⟩

/-- C49, all frames: whatever the sizes and movements, no call raises, and each pixel of the picture shows
the last frame that covered it. -/
theorem C49_history (scale : K) (hs : 0 ≤ scale) (att : Px → Px) (fs : List (Image Px × (K × K)))
    (hne : fs ≠ []) :
    ∃ b, (FixedCamera.create scale att).run (withMoves fs) = some ⟨scale, att, some b⟩ ∧
      Shown att b fs := by
  induction fs using List.reverseRecOn with
  | nil => exact absurd rfl hne
  | append_singleton fs g ih =>
    rw [show withMoves (fs ++ [g]) = withMoves fs ++ withMoves [g] by simp [withMoves], cameraRun_append]
    rcases List.eq_nil_or_concat fs with rfl | ⟨fs', q, hq⟩
    · obtain ⟨b, oy, ox, bh, bw, e, -, -, hc, hd⟩ := C49_first_frame scale hs att g.1 g.2
      refine ⟨b, ?_, ?_, ?_⟩
      · simp [withMoves, FixedCamera.run, e]
      · intro pre f post y x i j oy' ox' hsp hy hx hc' hp _
        rcases snoc_split hsp with ⟨rfl, -, rfl⟩ | ⟨post', -, h'⟩
        · have h := hd.h; have w := hd.w
          simp only at h w
          rw [← h, ← w] at hc
          rw [hc.1.unique hc'.1, hc.2.unique hc'.2] at hd
          exact hd.inside y x i j hy hx hp
        · simp at h'
      · intro y x hy hx hn
        have h := hd.h; have w := hd.w
        simp only at h w
        rw [← h, ← w] at hc
        exact hd.outside y x hy hx (hn g (by simp) _ _ hc)
    · obtain ⟨b0, e0, hS⟩ := ih (by rw [hq]; simp)
      obtain ⟨b, oy, ox, e, hc, hd⟩ := C49_next_frame ⟨scale, att, some b0⟩ b0 rfl g.1 g.2
      have h := hd.h; have w := hd.w
      simp only at h w
      refine ⟨b, ?_, ?_, ?_⟩
      · rw [e0]
        simp [withMoves, FixedCamera.run, e]
      · intro pre f post y x i j oy' ox' hsp hy hx hc' hp hpost
        rcases snoc_split hsp with ⟨rfl, -, rfl⟩ | ⟨post', rfl, h'⟩
        · rw [← h, ← w] at hc
          rw [hc.1.unique hc'.1, hc.2.unique hc'.2] at hd
          exact hd.inside y x i j hy hx hp
        · rw [hd.outside y x hy hx (hpost g (by simp) _ _ (by rw [h, w]; exact hc))]
          simp only
          rw [hS.covered pre f post' y x i j oy' ox' h' (by omega) (by omega) (by rw [← h, ← w]; exact hc')
            hp
            (fun g' hg' => by rw [← h, ← w]; exact hpost g' (by simp [hg']))]
          rw [List.length_append, List.length_singleton, Function.iterate_succ_apply']
      · intro y x hy hx hn
        rw [hd.outside y x hy hx (hn g (by simp) _ _ (by rw [h, w]; exact hc))]
        simp only
        rw [hS.black y x (by omega) (by omega)
          (fun g' hg' => by rw [← h, ← w]; exact hn g' (by simp [hg']))]
        have : 0 < fs.length := by rw [hq]; simp
        rw [← Function.iterate_succ_apply' att, List.length_append, List.length_singleton,
          show (fs.length - 1).succ = fs.length + 1 - 1 by omega]

/-- C49: a still scene seen by a camera that moves by whole pixels stays where it is in the picture: the
pixel of the background shows the same place of the scene in every frame. -/
theorem C49_stabilizes (c : FixedCamera K Px) (old : Image Px) (hc : c.background = some old)
    (frame : Image Px) (v : ℤ × ℤ) (scene : ℤ → ℤ → Px)
    (hf : ∀ i j, i < frame.h → j < frame.w → frame.px i j = scene (i - v.2) (j - v.1)) :
    ∃ b, c.adjustFrame frame (some (translation [(v.1 : K), (v.2 : K)])) =
        some { c with background := some b } ∧
      ∀ y x, y < old.h → x < old.w →
        let py : ℤ := y - ((old.h / 2 : Nat) - (frame.h / 2 : Nat))
        let px : ℤ := x - ((old.w / 2 : Nat) - (frame.w / 2 : Nat))
        if 0 ≤ py + v.2 ∧ py + v.2 < frame.h ∧ 0 ≤ px + v.1 ∧ px + v.1 < frame.w then
          b.px y x = scene py px
        else b.px y x = c.att (old.px y x) := by
  obtain ⟨b, oy, ox, e, hco, hd⟩ := C49_next_frame c old hc frame ((v.1 : K), (v.2 : K))
  obtain ⟨rfl, rfl⟩ := corner_unique hco
  refine ⟨b, e, ?_⟩
  intro y x hy hx
  have h := hd.h; have w := hd.w
  simp only at h w ⊢
  split
  · rename_i hin
    rw [hd.inside y x (y - ((old.h / 2 : Nat) - (frame.h / 2 : Nat)) + v.2 : ℤ).toNat
      (x - ((old.w / 2 : Nat) - (frame.w / 2 : Nat)) + v.1 : ℤ).toNat (by omega) (by omega)
      ⟨by omega, by omega, by omega, by omega⟩, hf _ _ (by omega) (by omega)]
    congr 1 <;> omega
  · rename_i hout
    refine hd.outside y x (by omega) (by omega) ?_
    rintro i j ⟨hi, hj, hy', hx'⟩
    exact hout ⟨by omega, by omega, by omega, by omega⟩

omit [IsStrictOrderedRing K] in
/-- C49: without a transformation (`MotionEstimator.update` returns `None` if it fails) the call raises. -/
theorem C49_none_raises (c : FixedCamera K Px) (frame : Image Px) : c.adjustFrame frame none = none := by
  unfold FixedCamera.adjustFrame
  cases c.prepare frame <;> rfl

end

/-! ### Examples -/

/-- a frame of 2 rows and 3 columns with different pixels -/
def toyFrame : Image ℕ := ⟨2, 3, fun i j => 10 * i + j + 1⟩

/-- the pixels of the background -/
def picture (c : FixedCamera ℚ ℕ) : List (List ℕ) :=
  match c.background with
  | none => []
  | some b => (List.range b.h).map fun y => (List.range b.w).map fun x => b.px y x

/-- C49: a frame drawn in the middle of a background of twice its size, then one partly outside; the old
one stays visible, attenuated -/
example : ((FixedCamera.create (2 : ℚ) (fun n => n / 2)).run
    (withMoves [(toyFrame, (0, 0)), (toyFrame, (2, -2))])).map picture =
    some [[0, 0, 0, 0, 0, 0], [0, 0, 0, 1, 1, 0], [0, 0, 5, 6, 6, 0], [1, 2, 3, 0, 0, 0]] := by
  decide +kernel

/-- C49_stabilizes: its hypotheses hold for a camera that has moved by `(1, 0)` -/
example : let frame : Image ℤ := ⟨2, 2, fun i j => 100 * i + (j - 1)⟩
    ∀ i j, i < frame.h → j < frame.w → frame.px i j = (fun y x => 100 * y + x) ((i : ℤ) - 0) ((j : ℤ) - 1) := by
  intro frame i j _ _
  simp [frame]

/-- C49_history: all the frames are completely outside -/
example : ((FixedCamera.create (1 : ℚ) (fun n => n / 2)).run
    (withMoves [(toyFrame, (7, 0)), (toyFrame, (-9, -20))])).map picture =
    some [[0, 0, 0], [0, 0, 0]] := by
  decide +kernel

end Norfair.Props
