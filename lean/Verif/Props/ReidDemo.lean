import Verif.Spec.Demos
import Verif.Props.Cutout
import Verif.Props.FixedCamera

/-! C110: the artificial videos and the ReID distance of the ReID demo. -/

set_option linter.unusedSectionVars false

namespace Norfair.Props

open Norfair Norfair.Spec

variable {K C P E : Type}

section
variable [Field K] [LinearOrder K] [IsStrictOrderedRing K]

/-- **C110** `collision_detected` says whether some point is inside both boxes; the order of the boxes does not matter. -/
theorem C110_collision {a b : Box K} (ha : WellFormed a) (hb : WellFormed b) :
    (collision a b = true ↔ Overlapping a b) ∧ collision a b = collision b a := by
  constructor
  · simp only [collision, Bool.and_eq_true, decide_eq_true_eq]
    constructor
    · rintro ⟨⟨⟨h1, h2⟩, h3⟩, h4⟩
      obtain ⟨x, x1, x2⟩ := exists_between (show max a.x1 b.x1 < min a.x2 b.x2 from
        max_lt (lt_min ha.1 h1) (lt_min h2 hb.1))
      obtain ⟨y, y1, y2⟩ := exists_between (show max a.y1 b.y1 < min a.y2 b.y2 from
        max_lt (lt_min ha.2 h3) (lt_min h4 hb.2))
      rw [max_lt_iff] at x1 y1
      rw [lt_min_iff] at x2 y2
      exact ⟨(x, y), ⟨⟨x1.1, x2.1⟩, y1.1, y2.1⟩, ⟨x1.2, x2.2⟩, y1.2, y2.2⟩
    · rintro ⟨⟨x, y⟩, ⟨⟨h1, h2⟩, h3, h4⟩, ⟨h5, h6⟩, h7, h8⟩
      exact ⟨⟨⟨h1.trans h6, h5.trans h2⟩, h3.trans h8⟩, h7.trans h4⟩
  · rw [Bool.eq_iff_iff]
    simp only [collision, Bool.and_eq_true, decide_eq_true_eq]
    tauto

theorem generateLoop_spec (l : List ((Box K × C) × P)) : ∀ pre : List ((Box K × C) × P),
    (∀ a ∈ pre ++ l, WellFormed a.1.1) →
    ∃ kept : List Nat, kept.Pairwise (· < ·) ∧
      (∀ k, k ∈ kept ↔ pre.length ≤ k ∧ InFront (pre ++ l) k) ∧
      (generateLoop (pre.map (·.1)) l).map some = kept.map fun k => (pre ++ l)[k]?.map (·.2) := by
  induction l with
  | nil =>
    intro pre _
    refine ⟨[], List.Pairwise.nil, fun k => ?_, rfl⟩
    simp only [List.not_mem_nil, false_iff, List.append_nil]
    rintro ⟨h, a, e, _⟩
    obtain ⟨h', _⟩ := List.getElem?_eq_some_iff.mp e
    omega
  | cons a l ih =>
    intro pre hw
    obtain ⟨kept, k1, k2, k3⟩ := ih (pre ++ [a]) (by simpa using hw)
    simp only [List.append_assoc, List.singleton_append, List.length_append, List.length_singleton] at k2 k3
    have hat : (pre ++ a :: l)[pre.length]? = some a := by simp
    have hwa : WellFormed a.1.1 := hw a (by simp)
    have hfront : InFront (pre ++ a :: l) pre.length ↔
        ((pre.map (·.1)).any fun past => collision a.1.1 past.1) = false := by
      rw [List.any_eq_false]
      constructor
      · rintro ⟨b, e, h⟩ q hq
        obtain ⟨c, hc, rfl⟩ := List.mem_map.mp hq
        rw [hat] at e
        cases e
        obtain ⟨j, hj, e⟩ := List.mem_iff_getElem.mp hc
        have := h j hj c (by rw [List.getElem?_append_left hj, List.getElem?_eq_getElem hj, e])
        rwa [(C110_collision hwa (hw c (by simp [hc]))).1]
      · intro h
        refine ⟨a, hat, fun j hj c hc => ?_⟩
        rw [List.getElem?_append_left hj] at hc
        have hm := List.mem_of_getElem? hc
        have := h c.1 (List.mem_map.mpr ⟨c, hm, rfl⟩)
        rwa [(C110_collision hwa (hw c (by simp [hm]))).1] at this
    obtain ⟨b, p⟩ := a
    unfold generateLoop
    rw [List.map_append, List.map_singleton] at k3
    split
    · rename_i hc
      refine ⟨kept, k1, fun k => ?_, k3⟩
      rw [k2]
      constructor
      · rintro ⟨h1, h2⟩
        exact ⟨by omega, h2⟩
      · rintro ⟨h1, h2⟩
        refine ⟨?_, h2⟩
        rcases Nat.lt_or_ge pre.length k with h | h
        · omega
        · obtain rfl : pre.length = k := by omega
          rw [hfront, hc] at h2
          cases h2
    · rename_i hc
      refine ⟨pre.length :: kept, List.pairwise_cons.mpr ⟨fun k hk => ?_, k1⟩, fun k => ?_, ?_⟩
      · have := ((k2 k).mp hk).1
        omega
      · rw [List.mem_cons, k2]
        constructor
        · rintro (rfl | ⟨h1, h2⟩)
          · exact ⟨le_rfl, hfront.mpr (by simpa using hc)⟩
          · exact ⟨by omega, h2⟩
        · rintro ⟨h1, h2⟩
          rcases Nat.lt_or_ge pre.length k with h | h
          · exact .inr ⟨by omega, h2⟩
          · exact .inl (by omega)
      · rw [List.map_cons, List.map_cons, k3, hat]
        rfl

/-- **C110** In each step, the detections are those of the actors that overlap with no actor in front of them, from the
last one to the first one; no two of them overlap. The true boxes are those of all actors. -/
theorem C110_detections (actors : List ((Box K × C) × P)) (hw : ∀ a ∈ actors, WellFormed a.1.1) :
    (generateStep actors).1 = actors.reverse.map (·.1) ∧
    ∃ kept : List Nat, kept.Pairwise (· < ·) ∧ (∀ k, k ∈ kept ↔ InFront actors k) ∧
      (generateStep actors).2.map some = kept.reverse.map (fun k => actors[k]?.map (·.2)) ∧
      ∀ j ∈ kept, ∀ k ∈ kept, j ≠ k → ∀ a b, actors[j]? = some a → actors[k]? = some b → ¬ Overlapping a.1.1 b.1.1 := by
  obtain ⟨kept, k1, k2, k3⟩ := generateLoop_spec actors [] (by simpa using hw)
  simp only [List.length_nil, Nat.zero_le, true_and, List.nil_append, List.map_nil] at k2 k3
  refine ⟨by simp [generateStep], kept, k1, k2, ?_, ?_⟩
  · simp only [generateStep]
    rw [List.map_reverse, k3, List.map_reverse]
  · intro j hj k hk hjk a b ha hb hab
    rcases Nat.lt_or_gt_of_ne hjk with h | h
    · obtain ⟨c, e, h'⟩ := (k2 k).mp hk
      rw [hb] at e
      cases e
      obtain ⟨p, h1, h2⟩ := hab
      exact h' j h a ha ⟨p, h2, h1⟩
    · obtain ⟨c, e, h'⟩ := (k2 j).mp hj
      rw [ha] at e
      cases e
      exact h' k h b hb hab

/-! ### The picture -/

variable [FloorRing K]

theorem paint_px {Px : Type} (img : Image Px) {b : Box K} (hb : InQuadrant b) (c : Px) {y x : Nat} (hy : y < img.h)
    (hx : x < img.w) : (CoversPixel b y x → (img.paint b c).px y x = c) ∧
      (¬ CoversPixel b y x → (img.paint b c).px y x = img.px y x) := by
  obtain ⟨h1, h2, h3, h4⟩ := hb
  have neg : ∀ {z : K}, 0 ≤ z → 0 ≤ truncInt z := fun h => truncInt_nonneg (by linarith)
  unfold CoversPixel
  rw [← truncInt_le_iff, ← lt_truncInt_iff, ← truncInt_le_iff, ← lt_truncInt_iff]
  have p1 := neg h1
  have p2 := neg h2
  have p3 := neg h3
  have p4 := neg h4
  unfold Image.paint
  simp only [sliceLimit_nonneg p1, sliceLimit_nonneg p2, sliceLimit_nonneg p3, sliceLimit_nonneg p4]
  constructor
  · intro h
    rw [if_pos (by omega)]
  · intro h
    rw [if_neg (by omega)]

theorem paintActors_foldr {Px : Type} (size : Nat) (empty : Px) (gt : List (Box K × Px)) :
    paintActors size empty gt.reverse =
      gt.foldr (fun g img => img.paint g.1 g.2) ⟨size, size, fun _ _ => empty⟩ := by
  unfold paintActors
  rw [List.foldl_reverse]

theorem paintActors_size {Px : Type} (size : Nat) (empty : Px) (gt : List (Box K × Px)) :
    (gt.foldr (fun g img => img.paint g.1 g.2) (⟨size, size, fun _ _ => empty⟩ : Image Px)).h = size ∧
    (gt.foldr (fun g img => img.paint g.1 g.2) (⟨size, size, fun _ _ => empty⟩ : Image Px)).w = size := by
  induction gt with
  | nil => exact ⟨rfl, rfl⟩
  | cons g gt ih => exact ih

/-- **C110** In the picture each pixel has the color of the first actor that covers it, and no color if there is none:
actors hide those behind them. -/
theorem C110_picture {Px : Type} (size : Nat) (empty : Px) (actors : List ((Box K × Px) × P))
    (hq : ∀ a ∈ actors, InQuadrant a.1.1) (y x : Nat) (hy : y < size) (hx : x < size) :
    let img := paintActors size empty (generateStep actors).1
    img.h = size ∧ img.w = size ∧
    (∀ (k : Nat) (a : (Box K × Px) × P), actors[k]? = some a → CoversPixel a.1.1 y x →
      (∀ j < k, ∀ b : (Box K × Px) × P, actors[j]? = some b → ¬ CoversPixel b.1.1 y x) → img.px y x = a.1.2) ∧
    ((∀ a ∈ actors, ¬ CoversPixel a.1.1 y x) → img.px y x = empty) := by
  simp only [generateStep]
  rw [paintActors_foldr]
  refine ⟨(paintActors_size ..).1, (paintActors_size ..).2, ?_⟩
  induction actors with
  | nil => exact ⟨fun k a h => by simp at h, fun _ => rfl⟩
  | cons c l ih =>
    have ih := ih fun a ha => hq a (List.mem_cons_of_mem _ ha)
    have hp := paint_px ((l.map (·.1)).foldr (fun g img => img.paint g.1 g.2) ⟨size, size, fun _ _ => empty⟩)
      (hq c (List.mem_cons_self ..)) c.1.2 (y := y) (x := x) (by rwa [(paintActors_size ..).1])
      (by rwa [(paintActors_size ..).2])
    rw [List.map_cons, List.foldr_cons]
    constructor
    · rintro (_ | k) a ha hca hb
      · rw [List.getElem?_cons_zero, Option.some.injEq] at ha
        subst ha
        exact hp.1 hca
      · rw [hp.2 (hb 0 (by omega) c rfl)]
        exact ih.1 k a (by simpa using ha) hca fun j hj b hb' => hb (j + 1) (by omega) b (by simpa using hb')
    · intro h
      rw [hp.2 (h c (List.mem_cons_self ..))]
      exact ih.2 fun a ha => h a (List.mem_cons_of_mem _ ha)

theorem covers_overlapping {a b : Box K} {y x : Nat} (h1 : CoversPixel a y x) (h2 : CoversPixel b y x) :
    Overlapping a b := by
  obtain ⟨⟨a1, a2⟩, a3, a4⟩ := h1
  obtain ⟨⟨b1, b2⟩, b3, b4⟩ := h2
  obtain ⟨u, u1, u2⟩ := exists_between (max_lt a1 b1)
  obtain ⟨v, v1, v2⟩ := exists_between (max_lt a3 b3)
  rw [max_lt_iff] at u1 v1
  exact ⟨(u, v), ⟨⟨u1.1, u2.trans_le a2⟩, v1.1, v2.trans_le a4⟩, ⟨u1.2, u2.trans_le b2⟩, v1.2, v2.trans_le b4⟩

/-- **C110** What is detected can be seen: of an actor whose detection is generated, all pixels of its true box have its
color. -/
theorem C110_seen {Px : Type} (size : Nat) (empty : Px) (actors : List ((Box K × Px) × P))
    (hq : ∀ a ∈ actors, InQuadrant a.1.1) {k : Nat} (hk : InFront actors k) {a : (Box K × Px) × P}
    (ha : actors[k]? = some a) (y x : Nat) (hy : y < size) (hx : x < size) (hc : CoversPixel a.1.1 y x) :
    (paintActors size empty (generateStep actors).1).px y x = a.1.2 := by
  refine (C110_picture size empty actors hq y x hy hx).2.2.1 k a ha hc fun j hj b hb hcb => ?_
  obtain ⟨a', e, h⟩ := hk
  rw [ha] at e
  cases e
  exact h j hj b hb (covers_overlapping hc hcb)

end

/-! ### The actors -/

/-- **C110** The true box of an actor begins on the canvas, at least 100 pixels from its right and lower edge, at every
step; so with sides up to 120 it ends less than 21 pixels after the edge. -/
theorem C110_position (s : Actor) (hc : 100 ≤ s.canvasSize) (hw : 0 < s.width) (hh : 0 < s.height) (step : ℝ) :
    InQuadrant (s.trueBox step) ∧ WellFormed (s.trueBox step) ∧
    (s.trueBox step).x1 ≤ s.canvasSize - 100 ∧ (s.trueBox step).y1 ≤ s.canvasSize - 100 ∧
    (s.trueBox step).x2 - (s.trueBox step).x1 = s.width ∧ (s.trueBox step).y2 - (s.trueBox step).y1 = s.height := by
  have key : ∀ t : ℝ, 0 ≤ (s.canvasSize / 2 - 50) * Real.cos t + (s.canvasSize / 2 - 50) ∧
      (s.canvasSize / 2 - 50) * Real.cos t + (s.canvasSize / 2 - 50) ≤ s.canvasSize - 100 := by
    intro t
    have h0 : 0 ≤ s.canvasSize / 2 - 50 := by linarith
    have h1 := mul_nonneg h0 (by linarith [Real.neg_one_le_cos t] : 0 ≤ Real.cos t + 1)
    have h2 := mul_nonneg h0 (by linarith [Real.cos_le_one t] : 0 ≤ 1 - Real.cos t)
    constructor
    · linarith [h1, (by ring : (s.canvasSize / 2 - 50) * (Real.cos t + 1) =
        (s.canvasSize / 2 - 50) * Real.cos t + (s.canvasSize / 2 - 50))]
    · linarith [h2, (by ring : (s.canvasSize / 2 - 50) * (1 - Real.cos t) =
        s.canvasSize - 100 - ((s.canvasSize / 2 - 50) * Real.cos t + (s.canvasSize / 2 - 50)))]
  have kx := key (s.omegaX * step + s.fiX)
  have ky := key (s.omegaY * step + s.fiY)
  simp only [Actor.trueBox, Actor.positionAt, InQuadrant, WellFormed]
  refine ⟨⟨kx.1, ky.1, ?_, ?_⟩, ⟨?_, ?_⟩, kx.2, ky.2, ?_, ?_⟩ <;> linarith [kx.1, ky.1]

/-! ### The ReID distance -/

section
variable [Field K] [LinearOrder K] [IsStrictOrderedRing K]

theorem newestEmbedding_iff (last : Option E) (past : List (Option E)) (e : E) : newestEmbedding last past = some e ↔
    (last = some e ∨ last = none ∧ ∃ a b, past = a ++ some e :: b ∧ ∀ x ∈ b, x = none) := by
  unfold newestEmbedding
  cases last with
  | some e' => simp
  | none =>
    simp only [reduceCtorEq, true_and, false_or]
    rw [List.findSome?_eq_some_iff]
    constructor
    · rintro ⟨l1, a, l2, h1, h2, h3⟩
      refine ⟨l2.reverse, l1.reverse, ?_, fun x hx => h3 x (by simpa using hx)⟩
      rw [List.reverse_eq_iff] at h1
      simp only [id] at h2
      subst h2
      simpa using h1
    · rintro ⟨a, b, h1, h2⟩
      refine ⟨b.reverse, some e, a.reverse, ?_, rfl, fun x hx => h2 x (by simpa using hx)⟩
      rw [h1]
      simp

/-- **C110** `embedding_distance` is below 1/2, the demo's threshold, exactly if the newest known embedding of the lost
object (the one of its last detection, or else the newest one among the past detections) is closer than 1/2 to a past
detection of the new object. Then it is the distance to the oldest one of these; otherwise it is 1. -/
theorem C110_embedding (corr : E → E → K) (pastNew : List (Option E)) (last : Option E) (past : List (Option E)) :
    (embeddingDistance corr pastNew last past < 1 / 2 ↔
      ∃ e, (last = some e ∨ last = none ∧ ∃ a b, past = a ++ some e :: b ∧ ∀ x ∈ b, x = none) ∧
        ∃ y, some y ∈ pastNew ∧ 1 - corr e y < 1 / 2) ∧
    (¬ embeddingDistance corr pastNew last past < 1 / 2 → embeddingDistance corr pastNew last past = 1) ∧
    (∀ e, (last = some e ∨ last = none ∧ ∃ a b, past = a ++ some e :: b ∧ ∀ x ∈ b, x = none) →
      ∀ a y b, pastNew = a ++ some y :: b → 1 - corr e y < 1 / 2 → (∀ z, some z ∈ a → ¬ 1 - corr e z < 1 / 2) →
      embeddingDistance corr pastNew last past = 1 - corr e y) := by
  simp only [← newestEmbedding_iff]
  have half : ¬ (1 : K) < 1 / 2 := by
    rw [not_lt, div_le_one (by norm_num)]
    norm_num
  unfold embeddingDistance
  rcases newestEmbedding last past with _ | e
  · refine ⟨⟨fun h => absurd h half, fun ⟨e, h, _⟩ => nomatch h⟩, fun _ => rfl, fun e h => nomatch h⟩
  · simp only [Option.some.injEq]
    rcases hf : pastNew.findSome? fun x => x.bind fun y => if 1 - corr e y < 1 / 2 then some (1 - corr e y) else none
      with _ | d
    · rw [hf]
      have hno : ∀ y, some y ∈ pastNew → ¬ 1 - corr e y < 1 / 2 := by
        intro y hy h
        have := List.findSome?_eq_none_iff.mp hf _ hy
        simp only [Option.bind_some, if_pos h, reduceCtorEq] at this
      refine ⟨⟨fun h => absurd h half, ?_⟩, fun _ => rfl, ?_⟩
      · rintro ⟨_, rfl, y, hy, h⟩
        exact absurd h (hno y hy)
      · rintro _ rfl a y b rfl h _
        exact absurd h (hno y (by simp))
    · rw [hf]
      obtain ⟨a, x, b, h1, h2, h3⟩ := List.findSome?_eq_some_iff.mp hf
      cases x with
      | none => cases h2
      | some y =>
        simp only [Option.bind_some] at h2
        split at h2
        · rename_i hy
          cases h2
          refine ⟨⟨fun _ => ⟨e, rfl, y, by simp [h1], hy⟩, fun _ => hy⟩, fun h => absurd hy h, ?_⟩
          rintro _ rfl a' y' b' h1' hy' h3'
          have : some (1 - corr e y') = some (1 - corr e y) := by
            rw [← hf]
            symm
            rw [List.findSome?_eq_some_iff]
            refine ⟨a', some y', b', h1', by simp only [Option.bind_some, if_pos hy'], fun x hx => ?_⟩
            cases x with
            | none => rfl
            | some z => simp only [Option.bind_some, if_neg (h3' z hx)]
          exact (Option.some.inj this).symm
        · cases h2

end

/-! ### Examples -/

/-- three actors; the second one is partly behind the first one -/
def threeActors : List ((Box ℚ × Nat) × Nat) :=
  [((⟨0, 0, 5 / 2, 3⟩, 1), 10), ((⟨2, 2, 5, 5⟩, 2), 20), ((⟨5 / 2, 0, 4, 2⟩, 3), 30)]

/-- C110: the hypotheses hold; the detection of the second actor is left out, and what the picture looks like -/
example : (∀ a ∈ threeActors, WellFormed a.1.1 ∧ InQuadrant a.1.1) ∧ (generateStep threeActors).2 = [30, 10] ∧
    (List.range 5).map (fun y => (List.range 5).map fun x => (paintActors 5 0 (generateStep threeActors).1).px y x) =
      [[1, 1, 3, 3, 0], [1, 1, 3, 3, 0], [1, 1, 2, 2, 2], [0, 0, 2, 2, 2], [0, 0, 2, 2, 2]] := by
  refine ⟨?_, by decide +kernel, by decide +kernel⟩
  unfold WellFormed InQuadrant
  decide +kernel

/-- C110_seen: the hypotheses hold for the third actor and the pixel in row 1 and column 2 -/
example : InFront threeActors 2 ∧ CoversPixel (⟨5 / 2, 0, 4, 2⟩ : Box ℚ) 1 2 := by
  refine ⟨⟨_, rfl, fun j hj c hc => ?_⟩, by norm_num [CoversPixel]⟩
  rintro ⟨p, ⟨⟨h1, h2⟩, h3, h4⟩, ⟨h5, h6⟩, h7, h8⟩
  obtain rfl | rfl : j = 0 ∨ j = 1 := by omega
  all_goals
    simp only [threeActors, List.getElem?_cons_zero, List.getElem?_cons_succ, Option.some.injEq] at hc
    subst hc
    simp only at h1 h2 h3 h4 h5 h6 h7 h8
    linarith

/-- C110_position: an actor of the demo, which ends outside the canvas in the first step -/
example : ∃ s : Actor, 100 ≤ s.canvasSize ∧ 50 ≤ s.width ∧ s.width ≤ 120 ∧ 0 < s.height ∧
    s.canvasSize < (s.trueBox 0).x2 := by
  refine ⟨⟨120, 50, 0, 0, 0, 0, 800⟩, by norm_num, by norm_num, by norm_num, by norm_num, ?_⟩
  norm_num [Actor.trueBox, Actor.positionAt]

/-- C110_embedding: the closest embedding is not the one that counts, but the oldest one that is close enough -/
example : embeddingDistance (K := ℚ) (fun a b : ℚ => 1 - |a - b|) [none, some 3, some (7 / 5), some 1] none
    [some 5, some 1, none] = 2 / 5 := by norm_num [embeddingDistance, newestEmbedding, abs]

end Norfair.Props
