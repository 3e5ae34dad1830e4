import Verif.Model.Draw3d
import Mathlib.Tactic.Linarith
import Mathlib.Tactic.Ring
import Mathlib.Tactic.FieldSimp
import Mathlib.Tactic.Positivity
import Mathlib.Data.Rat.Floor

/-! C127: the boxes drawn by the 3D demo. -/

set_option linter.unusedSectionVars false

namespace Norfair.Props

open Norfair

variable {K : Type} [Field K] [LinearOrder K] [IsStrictOrderedRing K] [FloorRing K]

/-- the place of corner `i` of a box (corners have the numbers 1 to 8): left or right, bottom or top, back or front -/
def cornerBits (i : Nat) : Nat × Nat × Nat := ((i - 1) / 4 % 2, (i - 1) / 2 % 2, (i - 1) % 2)

/-- corners that differ in exactly one of the three -/
def IsEdge (i j : Nat) : Prop :=
  (1 ≤ i ∧ i ≤ 8) ∧ (1 ≤ j ∧ j ≤ 8) ∧
    (if (cornerBits i).1 = (cornerBits j).1 then 0 else 1) + (if (cornerBits i).2.1 = (cornerBits j).2.1 then 0 else 1) +
      (if (cornerBits i).2.2 = (cornerBits j).2.2 then 0 else 1) = 1

instance (i j : Nat) : Decidable (IsEdge i j) := by unfold IsEdge; infer_instance

/-- the lines that `cv2.polylines` draws: between neighbors -/
def polySegments (pts : List (ℤ × ℤ)) : List ((ℤ × ℤ) × (ℤ × ℤ)) := pts.zip pts.tail

/-- the lines are the edges of the box: a line for every edge, and no other lines -/
def DrawsEdges (pixel : K × K × K → ℤ × ℤ) (o : Obj3d K) (pts : List (ℤ × ℤ)) : Prop :=
  (∀ i j p q, IsEdge i j → o.estimate[i]? = some p → o.estimate[j]? = some q →
    (pixel p, pixel q) ∈ polySegments pts ∨ (pixel q, pixel p) ∈ polySegments pts) ∧
  ∀ s ∈ polySegments pts, ∃ i j p q, IsEdge i j ∧ o.estimate[i]? = some p ∧ o.estimate[j]? = some q ∧ s = (pixel p, pixel q)

theorem drawsEdges_connected (project : K × K × K → K × K) (o : Obj3d K) (h9 : o.estimate.length = 9) :
    ∃ sorted, (connectedIndexes.mapM fun i => (o.estimate.map project)[i]?) = some sorted ∧
      DrawsEdges (fun p => truncPoint (project p)) o (sorted.map truncPoint) := by
  match he : o.estimate, h9 with
  | [c, p1, p2, p3, p4, p5, p6, p7, p8], _ =>
    refine ⟨_, rfl, ?_, ?_⟩
    · intro i j p q hij hp hq
      have hi : i ∈ List.range' 1 8 := by rw [List.mem_range']; exact ⟨i - 1, by have := hij.1; omega, by have := hij.1; omega⟩
      have hj : j ∈ List.range' 1 8 := by rw [List.mem_range']; exact ⟨j - 1, by have := hij.2.1; omega, by have := hij.2.1; omega⟩
      rw [he] at hp hq
      simp only [List.range', List.mem_cons, List.not_mem_nil, or_false] at hi hj
      rcases hi with rfl | rfl | rfl | rfl | rfl | rfl | rfl | rfl <;>
        rcases hj with rfl | rfl | rfl | rfl | rfl | rfl | rfl | rfl <;>
        first
        | (exact absurd hij (by decide))
        | (cases hp; cases hq; simp [polySegments])
    · intro s hs
      rw [he]
      let f : K × K × K → ℤ × ℤ := fun p => truncPoint (project p)
      change s ∈ [(f p1, f p2), (f p2, f p4), (f p4, f p3), (f p3, f p1), (f p1, f p5), (f p5, f p7), (f p7, f p3), (f p3, f p7), (f p7, f p8), (f p8, f p6), (f p6, f p5), (f p5, f p6), (f p6, f p2), (f p2, f p4), (f p4, f p8)] at hs
      simp only [List.mem_cons, List.not_mem_nil, or_false] at hs
      rcases hs with rfl | rfl | rfl | rfl | rfl | rfl | rfl | rfl | rfl | rfl | rfl | rfl | rfl | rfl | rfl
      · exact ⟨1, 2, p1, p2, by decide, rfl, rfl, rfl⟩
      · exact ⟨2, 4, p2, p4, by decide, rfl, rfl, rfl⟩
      · exact ⟨4, 3, p4, p3, by decide, rfl, rfl, rfl⟩
      · exact ⟨3, 1, p3, p1, by decide, rfl, rfl, rfl⟩
      · exact ⟨1, 5, p1, p5, by decide, rfl, rfl, rfl⟩
      · exact ⟨5, 7, p5, p7, by decide, rfl, rfl, rfl⟩
      · exact ⟨7, 3, p7, p3, by decide, rfl, rfl, rfl⟩
      · exact ⟨3, 7, p3, p7, by decide, rfl, rfl, rfl⟩
      · exact ⟨7, 8, p7, p8, by decide, rfl, rfl, rfl⟩
      · exact ⟨8, 6, p8, p6, by decide, rfl, rfl, rfl⟩
      · exact ⟨6, 5, p6, p5, by decide, rfl, rfl, rfl⟩
      · exact ⟨5, 6, p5, p6, by decide, rfl, rfl, rfl⟩
      · exact ⟨6, 2, p6, p2, by decide, rfl, rfl, rfl⟩
      · exact ⟨2, 4, p2, p4, by decide, rfl, rfl, rfl⟩
      · exact ⟨4, 8, p4, p8, by decide, rfl, rfl, rfl⟩

/-- the color of the `n`-th object: the colors given, again and again; otherwise the one of the palette for its id -/
def HasColor (pal : Nat → Option Color) (a : Draw3dArgs K) (n : Nat) (o : Obj3d K) (c : Color) : Prop :=
  match a.borderColors with
  | none => pal o.id = some c
  | some cs => cs[n % cs.length]? = some c

/-- the marks of one object: its edges, and its id at its center; the thickness of lines is a 200th of the height, the size
of texts a 1000th and their thickness a 500th, if they are not given -/
def MarksOf (pal : Nat → Option Color) (str : Nat → List Char) (project : K × K × K → K × K) (a : Draw3dArgs K)
    (height : Nat) (n : Nat) (o : Obj3d K) (ms : List (Mark3d K)) : Prop :=
  ∃ c, HasColor pal a n o c ∧ ∃ boxes texts, ms = boxes ++ texts ∧
    (if a.drawBox then ∃ pts, boxes = [.lines pts c (a.borderWidth.getD (height / 200 : Nat))] ∧
        DrawsEdges (fun p => truncPoint (project p)) o pts else boxes = []) ∧
    (a.idSize = none ∨ (∃ s, a.idSize = some s ∧ 0 < s) → ∃ z, o.estimate[0]? = some z ∧
      texts = [.text (str o.id) (truncPoint (project z)) (a.idSize.getD (height / 1000)) c
        (a.idThickness.getD (height / 500 : Nat))]) ∧
    ((∃ s, a.idSize = some s ∧ s ≤ 0) → texts = [])

theorem truncInt_natDiv (m n : Nat) (hn : 0 < n) : truncInt ((m : K) / (n : K)) = ((m / n : Nat) : ℤ) := by
  have hn' : (0 : K) < n := by exact_mod_cast hn
  unfold truncInt
  rw [if_pos (by positivity), Int.floor_eq_iff]
  have h : n * (m / n) + m % n = m := Nat.div_add_mod m n
  have h' : m % n < n := Nat.mod_lt _ hn
  constructor
  · rw [le_div_iff₀ hn']
    have : m / n * n ≤ m := by rw [mul_comm]; omega
    exact_mod_cast this
  · rw [div_lt_iff₀ hn']
    have : m < (m / n + 1) * n := by rw [add_mul, one_mul, mul_comm]; omega
    exact_mod_cast this

/-- the objects that are to be drawn, with their numbers -/
def toDraw (a : Draw3dArgs K) (os : List (Obj3d K)) (n : Nat) : List (Obj3d K × Nat) :=
  (os.zipIdx n).filter fun x => !a.onlyAlive || x.1.live.any id

/-- **C127** Exactly the objects with a live point are drawn (all objects, if asked for), in their order, each with the edges
of its box and its id at its center, in its color. -/
theorem C127_objects (pal : Nat → Option Color) (str : Nat → List Char) (project : K × K × K → K × K) (a : Draw3dArgs K)
    {height : Nat} (hh : 0 < height) (os : List (Obj3d K)) (h9 : ∀ o ∈ os, o.estimate.length = 9)
    (hpal : a.borderColors = none → ∀ o ∈ os, pal o.id ≠ none) (hcs : a.borderColors ≠ some []) :
    ∃ per, draw3dTrackedBoxes pal str project a height os = some per.flatten ∧
      List.Forall₂ (fun x ms => MarksOf pal str project a height x.2 x.1 ms) (toDraw a os 0) per := by
  unfold draw3dTrackedBoxes
  simp only
  have hw : truncInt ((height : K) / 100 * (1 / 2)) = ((height / 200 : Nat) : ℤ) := by
    rw [← truncInt_natDiv (K := K) height 200 (by decide)]
    congr 1
    push_cast
    ring
  have ht : truncInt ((height : K) / 100 / 5) = ((height / 500 : Nat) : ℤ) := by
    rw [← truncInt_natDiv (K := K) height 500 (by decide)]
    congr 1
    push_cast
    ring
  have hz : (height : K) / 100 / 10 = (height : K) / 1000 := by ring
  rw [hw, ht, hz]
  have hpos : (0 : K) < (height : K) / 1000 := by
    have : (0 : K) < height := by exact_mod_cast hh
    positivity
  generalize 0 = n
  have obj : ∀ (n : Nat) (o : Obj3d K), o.estimate.length = 9 → (a.borderColors = none → pal o.id ≠ none) →
      ∃ ms, draw3dObject pal str project a (a.borderWidth.getD (height / 200 : Nat)) (a.idSize.getD ((height : K) / 1000))
        (a.idThickness.getD (height / 500 : Nat)) n o = some ms ∧ MarksOf pal str project a height n o ms := by
    intro n o h9 hp
    have hc : ∃ c, color3d pal a n o = some c ∧ HasColor pal a n o c := by
      unfold HasColor color3d
      cases hb : a.borderColors with
      | none =>
        obtain ⟨c, hc⟩ := Option.ne_none_iff_exists'.mp (hp hb)
        exact ⟨c, hc, hc⟩
      | some cs =>
        have hlen : 0 < cs.length := by
          rcases cs with _ | ⟨c, cs⟩
          · exact absurd hb hcs
          · simp
        refine ⟨_, ?_, List.getElem?_eq_getElem (Nat.mod_lt _ hlen)⟩
        simp only
        rw [if_neg (by omega)]
        exact List.getElem?_eq_getElem (Nat.mod_lt _ hlen)
    obtain ⟨c, hc, hcol⟩ := hc
    obtain ⟨sorted, hs, hd⟩ := drawsEdges_connected project o h9
    have hz : o.estimate[0]? = some (o.estimate[0]'(by omega)) := List.getElem?_eq_getElem _
    unfold draw3dObject
    rw [hc, Option.bind_some, hs, Option.bind_some, List.getElem?_map, hz]
    refine ⟨_, rfl, c, hcol, _, _, rfl, ?_, ?_, ?_⟩
    · split
      · exact ⟨_, rfl, hd⟩
      · rfl
    · intro h
      rw [if_pos]
      · exact ⟨_, hz, rfl⟩
      · rcases h with h | ⟨s, h, h'⟩
        · rw [h]; exact hpos
        · rw [h]; exact h'
    · rintro ⟨s, h, h'⟩
      rw [if_neg]
      rw [h]
      exact not_lt.mpr h'
  induction os generalizing n with
  | nil => exact ⟨[], rfl, .nil⟩
  | cons o os ih =>
    obtain ⟨per, h1, h2⟩ := ih (fun o ho => h9 o (List.mem_cons_of_mem _ ho))
      (fun h o ho => hpal h o (List.mem_cons_of_mem _ ho)) (n + 1)
    unfold draw3dLoop
    unfold toDraw at h2 ⊢
    rw [List.zipIdx_cons]
    by_cases hk : (!a.onlyAlive || o.live.any id) = true
    · rw [List.filter_cons_of_pos (by simpa using hk), if_neg (by revert hk; cases a.onlyAlive <;> cases o.live.any id <;> simp)]
      obtain ⟨ms, e, hm⟩ := obj n o (h9 o List.mem_cons_self) fun h => hpal h o List.mem_cons_self
      rw [e, Option.bind_some, h1, Option.map_some]
      exact ⟨ms :: per, rfl, .cons hm h2⟩
    · rw [List.filter_cons_of_neg (by simpa using hk), if_pos (by revert hk; cases a.onlyAlive <;> cases o.live.any id <;> simp)]
      exact ⟨per, h1, h2⟩

/-! ### The lines -/

/-- the point at `t` between two points -/
def between2 (p q : K × K) (t : K) : K × K := ((1 - t) * p.1 + t * q.1, (1 - t) * p.2 + t * q.2)

def between3 (p q : K × K × K) (t : K) : K × K × K :=
  ((1 - t) * p.1 + t * q.1, (1 - t) * p.2.1 + t * q.2.1, (1 - t) * p.2.2 + t * q.2.2)

theorem project_between (s : Projecter K) {p q : K × K × K} (hp : p.2.2 ≠ 0) (hq : q.2.2 ≠ 0) {t : K}
    (hz : (1 - t) * p.2.2 + t * q.2.2 ≠ 0) :
    s.eyeToPixel (between3 p q t) =
      between2 (s.eyeToPixel p) (s.eyeToPixel q) (t * q.2.2 / ((1 - t) * p.2.2 + t * q.2.2)) := by
  unfold Projecter.eyeToPixel between3 between2
  ext
  · simp only
    field_simp
    ring
  · simp only
    field_simp
    ring

/-- **C127** The picture of an edge is the line between the pictures of its corners, if both corners are on the same side of
the eye: every point of the edge is projected to a point of the line, and every point of the line is the picture of a point of
the edge. -/
theorem C127_edge (s : Projecter K) {p q : K × K × K} (h : 0 < p.2.2 * q.2.2) :
    (∀ t, 0 ≤ t → t ≤ 1 → ∃ u, 0 ≤ u ∧ u ≤ 1 ∧ s.eyeToPixel (between3 p q t) = between2 (s.eyeToPixel p) (s.eyeToPixel q) u) ∧
    ∀ u, 0 ≤ u → u ≤ 1 → ∃ t, 0 ≤ t ∧ t ≤ 1 ∧ s.eyeToPixel (between3 p q t) = between2 (s.eyeToPixel p) (s.eyeToPixel q) u := by
  have hp : p.2.2 ≠ 0 := left_ne_zero_of_mul h.ne'
  have hq : q.2.2 ≠ 0 := right_ne_zero_of_mul h.ne'
  have ratio : ∀ a b : K, 0 < a * b → ∀ t, 0 ≤ t → t ≤ 1 →
      (1 - t) * a + t * b ≠ 0 ∧ 0 ≤ t * b / ((1 - t) * a + t * b) ∧ t * b / ((1 - t) * a + t * b) ≤ 1 := by
    intro a b hab t h0 h1
    rcases pos_and_pos_or_neg_and_neg_of_mul_pos hab with ⟨ha, hb⟩ | ⟨ha, hb⟩
    · have hd : 0 < (1 - t) * a + t * b := by
        rcases h0.lt_or_eq with h | h
        · have := mul_pos h hb
          have := mul_nonneg (sub_nonneg.mpr h1) ha.le
          linarith
        · rw [← h]; linarith
      refine ⟨hd.ne', by positivity, ?_⟩
      rw [div_le_one hd]
      have := mul_nonneg (sub_nonneg.mpr h1) ha.le
      linarith
    · have hd : (1 - t) * a + t * b < 0 := by
        rcases h0.lt_or_eq with h | h
        · have := mul_neg_of_pos_of_neg h hb
          have := mul_nonpos_of_nonneg_of_nonpos (sub_nonneg.mpr h1) ha.le
          linarith
        · rw [← h]; linarith
      refine ⟨hd.ne, div_nonneg_of_nonpos (mul_nonpos_of_nonneg_of_nonpos h0 hb.le) hd.le, ?_⟩
      rw [div_le_one_of_neg hd]
      have := mul_nonpos_of_nonneg_of_nonpos (sub_nonneg.mpr h1) ha.le
      linarith
  constructor
  · intro t h0 h1
    obtain ⟨r1, r2, r3⟩ := ratio _ _ h t h0 h1
    exact ⟨_, r2, r3, project_between s hp hq r1⟩
  · intro u h0 h1
    obtain ⟨r1, r2, r3⟩ := ratio q.2.2 p.2.2 (by rw [mul_comm]; exact h) u h0 h1
    refine ⟨_, r2, r3, ?_⟩
    obtain ⟨d1, -, -⟩ := ratio _ _ h _ r2 r3
    rw [project_between s hp hq d1]
    congr 1
    generalize hD : (1 - u) * q.2.2 + u * p.2.2 = D at r1
    have e : (1 - u * p.2.2 / D) * p.2.2 + u * p.2.2 / D * q.2.2 = p.2.2 * q.2.2 / D := by
      field_simp
      rw [← hD]
      ring
    rw [e]
    field_simp

theorem truncInt_near (x : K) : |x - truncInt x| < 1 := by
  unfold truncInt
  split
  · rw [abs_lt]
    have h1 := Int.floor_le x
    have h2 := Int.lt_floor_add_one x
    constructor <;> linarith
  · rw [abs_lt]
    have h1 := Int.le_ceil x
    have h2 := Int.ceil_lt_add_one x
    constructor <;> linarith

/-- less than a pixel apart in both directions -/
def NearPoint (p q : K × K) : Prop := |p.1 - q.1| < 1 ∧ |p.2 - q.2| < 1

/-- a point of the drawn line is near the same point of the line between the exact places -/
theorem between_trunc (a b : K × K) {u : K} (h0 : 0 ≤ u) (h1 : u ≤ 1) :
    NearPoint (between2 a b u) (between2 (((truncPoint a).1 : K), ((truncPoint a).2 : K))
      (((truncPoint b).1 : K), ((truncPoint b).2 : K)) u) := by
  have key : ∀ x y : K, |((1 - u) * x + u * y) - ((1 - u) * truncInt x + u * truncInt y)| < 1 := by
    intro x y
    have hx := abs_lt.mp (truncInt_near x)
    have hy := abs_lt.mp (truncInt_near y)
    have hu : 0 ≤ 1 - u := sub_nonneg.mpr h1
    rw [abs_lt]
    rcases h0.lt_or_eq with h | h
    · constructor <;> nlinarith [mul_lt_mul_of_pos_left hy.1 h, mul_lt_mul_of_pos_left hy.2 h,
        mul_le_mul_of_nonneg_left hx.1.le hu, mul_le_mul_of_nonneg_left hx.2.le hu]
    · rw [← h]
      constructor <;> linarith [hx.1, hx.2]
  exact ⟨key a.1 b.1, key a.2 b.2⟩

/-- **C127** What is drawn is the picture of the edges, up to less than a pixel: for every edge whose ends are on the same side
of the eye, every point of its picture is near the drawn line, and every point of the drawn line is near its picture. -/
theorem C127_near (s : Projecter K) {p q : K × K × K} (h : 0 < p.2.2 * q.2.2) :
    (∀ t, 0 ≤ t → t ≤ 1 → ∃ u, 0 ≤ u ∧ u ≤ 1 ∧ NearPoint (s.eyeToPixel (between3 p q t))
      (between2 (((truncPoint (s.eyeToPixel p)).1 : K), ((truncPoint (s.eyeToPixel p)).2 : K))
        (((truncPoint (s.eyeToPixel q)).1 : K), ((truncPoint (s.eyeToPixel q)).2 : K)) u)) ∧
    ∀ u, 0 ≤ u → u ≤ 1 → ∃ t, 0 ≤ t ∧ t ≤ 1 ∧ NearPoint (s.eyeToPixel (between3 p q t))
      (between2 (((truncPoint (s.eyeToPixel p)).1 : K), ((truncPoint (s.eyeToPixel p)).2 : K))
        (((truncPoint (s.eyeToPixel q)).1 : K), ((truncPoint (s.eyeToPixel q)).2 : K)) u) := by
  obtain ⟨e1, e2⟩ := C127_edge s h
  constructor
  · intro t h0 h1
    obtain ⟨u, u0, u1, e⟩ := e1 t h0 h1
    exact ⟨u, u0, u1, by rw [e]; exact between_trunc _ _ u0 u1⟩
  · intro u u0 u1
    obtain ⟨t, h0, h1, e⟩ := e2 u u0 u1
    exact ⟨t, h0, h1, by rw [e]; exact between_trunc _ _ u0 u1⟩

/-! ### Examples -/

/-- a box in front of the eye, and one without live points -/
def shoe (live : Bool) (z : ℚ) : Obj3d ℚ :=
  ⟨4, (0, 0, z) :: (List.range 8).map fun i => ((if i / 4 = 0 then -1 else 1), (if i / 2 % 2 = 0 then -1 else 1),
    z + if i % 2 = 0 then -1 else 1), List.replicate 9 live⟩

def shoeEye : Projecter ℚ := .ofNdc (200, 100) (1, 1) (0, 0)

example : (∀ o ∈ [shoe false (-3), shoe true (-3)], o.estimate.length = 9) ∧
    (draw3dTrackedBoxes (fun _ => some [1, 2, 3]) (fun n => [Char.ofNat (48 + n)]) shoeEye.eyeToPixel {} 400
      [shoe false (-3), shoe true (-3)]) =
    some [.lines [(75, 62), (50, 75), (50, 25), (75, 37), (75, 62), (125, 62), (125, 37), (75, 37), (125, 37), (150, 25),
        (150, 75), (125, 62), (150, 75), (50, 75), (50, 25), (150, 25)] [1, 2, 3] 2,
      .text ['4'] (100, 50) (2 / 5) [1, 2, 3] 0] := by
  refine ⟨?_, by decide +kernel⟩
  intro o ho
  simp only [List.mem_cons, List.not_mem_nil, or_false] at ho
  rcases ho with rfl | rfl <;> rfl

/-- corners on the same side of the eye; and the hypothesis is needed: if one is behind the eye, the middle of the edge is not
near the line -/
example : (0 : ℚ) < (-4) * (-2) ∧ shoeEye.eyeToPixel (between3 (0, 0, -3) (1, 0, 1) (1 / 2)) = (150, 50) ∧
    shoeEye.eyeToPixel (0, 0, -3) = (100, 50) ∧ shoeEye.eyeToPixel (1, 0, 1) = (0, 50) := by decide +kernel

end Norfair.Props
