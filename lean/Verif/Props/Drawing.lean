import Verif.Model.Drawing
import Verif.Props.Color
import Verif.Props.CameraMotion

/-!
Drawing of points, boxes, texts, paths and grids (C50, C53, C54, C69, C70, C71).
-/

namespace Norfair.Props

open Norfair

variable {K H : Type}

/-- the circles on a picture, in the order in which they were drawn -/
def circles : Canvas K → List (List ℤ × Color)
  | .base => []
  | .black => []
  | .scaled c _ => circles c
  | .circle c p _ _ col => circles c ++ [(p, col)]
  | .line c _ _ _ _ => circles c
  | .rectangle c _ _ _ _ => circles c
  | .text c _ _ _ _ _ => circles c
  | .blend a b _ _ => circles b ++ circles a

/-- the texts on a picture, in the order in which they were drawn -/
def texts : Canvas K → List (List Char × Option (List ℤ) × Color)
  | .base => []
  | .black => []
  | .scaled c _ => texts c
  | .circle c _ _ _ _ => texts c
  | .line c _ _ _ _ => texts c
  | .rectangle c _ _ _ _ => texts c
  | .text c s p col _ _ => texts c ++ [(s, p, col)]
  | .blend a b _ _ => texts b ++ texts a

/-- the rectangles on a picture, in the order in which they were drawn -/
def rectangles : Canvas K → List (List ℤ × List ℤ × ℤ × Color)
  | .base => []
  | .black => []
  | .scaled c _ => rectangles c
  | .circle c _ _ _ _ => rectangles c
  | .line c _ _ _ _ => rectangles c
  | .rectangle c a b t col => rectangles c ++ [(a, b, t, col)]
  | .text c _ _ _ _ _ => rectangles c
  | .blend a b _ _ => rectangles b ++ rectangles a

/-- the lines on a picture, in the order in which they were drawn -/
def lines : Canvas K → List (List ℤ × List ℤ)
  | .base => []
  | .black => []
  | .scaled c _ => lines c
  | .circle c _ _ _ _ => lines c
  | .line c a b _ _ => lines c ++ [(a, b)]
  | .rectangle c _ _ _ _ => lines c
  | .text c _ _ _ _ _ => lines c
  | .blend a b _ _ => lines b ++ lines a

/-! ### C54: texts -/

/-- the parts of a text that are wanted and available -/
def textParts (str : H → List Char) (fmt : List K → List Char) (d : Drawable K H)
    (drawLabels drawIds drawScores : Bool) : List (List Char) :=
  (if drawLabels then (d.label.map str).toList else []) ++
  (if drawIds then (d.id.map str).toList else []) ++
  (if drawScores then (d.scores.map fmt).toList else [])

/-- C54: the text is the label, the id and the mean score, those that are wanted and available, separated
by `-`. An empty label is left out, with its separator; ids and scores are assumed to have a text. -/
theorem C54_text (str : H → List Char) (fmt : List K → List Char) (d : Drawable K H)
    (l i s : Bool) (hid : ∀ x, d.id = some x → str x ≠ []) (hs : ∀ x, d.scores = some x → fmt x ≠ []) :
    buildText str fmt d l i s =
      ['-'].intercalate ((textParts str fmt d l i s).filter (· ≠ [])) := by
  obtain ⟨pts, id, label, scores, live⟩ := d
  simp only at hid hs
  unfold buildText textParts
  rcases label with _ | lab
  · rcases id with _ | i' <;> rcases scores with _ | sc <;> cases l <;> cases i <;> cases s <;>
      simp_all [List.intercalate, List.intersperse, List.length_pos_iff]
  · rcases hlab : str lab with _ | ⟨x, t⟩ <;>
      rcases id with _ | i' <;> rcases scores with _ | sc <;> cases l <;> cases i <;> cases s <;>
      simp_all [List.intercalate, List.intersperse, List.length_pos_iff]

/-- C54: an object with label, id and scores; one with an empty label; a detection without a label -/
example :
    let str : Nat → List Char := fun n => if n = 0 then [] else "car".toList.take n
    let fmt : List ℚ → List Char := fun _ => "0.5".toList
    buildText str fmt ⟨[], some 1, some 3, some [1, 0], []⟩ true true true = "car-c-0.5".toList ∧
    buildText str fmt ⟨[], some 1, some 0, none, []⟩ true true true = "c".toList ∧
    buildText str fmt ⟨[], none, none, some [1, 0], []⟩ true true false = [] := by decide +kernel

/-! ### C53: points -/

/-- the positions of the live points of an object, in whole pixels -/
def livePositions [Ring K] [LinearOrder K] [FloorRing K] (d : Drawable K H) : List (List ℤ) :=
  (List.range d.points.length).filterMap fun i =>
    if d.live[i]? = some true then (d.points[i]?).map fun p => p.map truncInt else none

theorem zip_live {α β : Type} (f : α → β) (ps : List α) (live : List Bool) :
    (((ps.zip live).filter (·.2)).map fun p => f p.1) =
      (List.range ps.length).filterMap fun i =>
        if live[i]? = some true then (ps[i]?).map f else none := by
  induction ps generalizing live with
  | nil => simp
  | cons p ps ih =>
    rw [List.length_cons, List.range_succ_eq_map, List.filterMap_cons, List.filterMap_map]
    cases live with
    | nil =>
      simp
    | cons b live =>
      have := ih live
      cases b <;> simp [this, Function.comp_def]

section
variable [Field K] [LinearOrder K] [FloorRing K]

theorem circles_foldl (hide : Bool) (r t : ℤ) (col : Color) (ps : List (List K × Bool))
    (c : Canvas K) : circles (drawCircles hide r t col ps c) =
      circles c ++ (ps.filter fun p => p.2 || !hide).map fun p => (p.1.map truncInt, col) := by
  unfold drawCircles
  induction ps generalizing c with
  | nil => simp
  | cons p ps ih =>
    rw [List.foldl_cons, ih]
    by_cases h : (p.2 || !hide) = true
    · rw [if_pos h, List.filter_cons, if_pos h]
      simp [circles]
    · rw [if_neg h, List.filter_cons, if_neg h]

theorem texts_foldl (hide : Bool) (r t : ℤ) (col : Color) (ps : List (List K × Bool))
    (c : Canvas K) : texts (drawCircles hide r t col ps c) = texts c := by
  unfold drawCircles
  induction ps generalizing c with
  | nil => rfl
  | cons p ps ih =>
    rw [List.foldl_cons, ih]
    split <;> rfl

/-- one step of the loop -/
theorem drawPointsLoop_cons (env : DrawEnv K H) (a : DrawPointsArgs K) (color : ColorLike) (r t : ℤ)
    (tc : Option Color) (k : Nat) (d : Drawable K H) (ds : List (Drawable K H)) (c : Canvas K) :
    (a.hideDeadPoints = true → (∀ b ∈ d.live, b = false) →
      drawPointsLoop env a color r t tc k (d :: ds) c = drawPointsLoop env a color r t tc k ds c) ∧
    (¬ (a.hideDeadPoints = true ∧ ∀ b ∈ d.live, b = false) →
      (objColor env color d k = none → drawPointsLoop env a color r t tc k (d :: ds) c = none) ∧
      ∀ col, objColor env color d k = some col → ∃ c',
        drawPointsLoop env a color r t tc k (d :: ds) c =
          drawPointsLoop env a color r t tc (k + 1) ds c' ∧
        circles c' = circles c ++ (if a.drawPoints then
          ((d.points.zip d.live).filter fun p => p.2 || !a.hideDeadPoints).map
            fun p => (p.1.map truncInt, col) else []) ∧
        texts c' = texts c ++ (if a.drawLabels || a.drawIds || a.drawScores then
          [(buildText env.str env.fmt d a.drawLabels a.drawIds a.drawScores,
            ((meanRows ((d.points.headD []).length) (maskRows d.points d.live)).map
              fun p => p.map fun x => truncInt (x - (r : K))), tc.getD col)] else [])) := by
  have hany : (!d.live.any (·)) = true ↔ ∀ b ∈ d.live, b = false := by
    simp
  constructor
  · intro h1 h2
    rw [drawPointsLoop, if_pos]
    rw [h1, hany.mpr h2]; rfl
  · intro hn
    have hc : ¬ (a.hideDeadPoints && !d.live.any (·)) = true := by
      rw [Bool.and_eq_true, hany]; exact hn
    constructor
    · intro ho
      rw [drawPointsLoop, if_neg hc, ho]
    · intro col ho
      rw [drawPointsLoop, if_neg hc, ho]
      refine ⟨_, rfl, ?_, ?_⟩
      · cases a.drawPoints <;> cases (a.drawLabels || a.drawIds || a.drawScores) <;>
          simp [circles, circles_foldl]
      · cases a.drawPoints <;> cases (a.drawLabels || a.drawIds || a.drawScores) <;>
          simp [texts, texts_foldl]

/-- C53: an object without live points is not drawn at all: leaving it out of the list gives the same
picture. -/
theorem C53_dead_objects (env : DrawEnv K H) (shape : List Nat) (a : DrawPointsArgs K)
    (hh : a.hideDeadPoints = true) (ds : List (Drawable K H)) :
    drawPoints env shape a (some ds) =
      drawPoints env shape a (some (ds.filter fun d => d.live.contains true)) := by
  have key : ∀ color r t tc k (c : Canvas K), drawPointsLoop env a color r t tc k ds c =
      drawPointsLoop env a color r t tc k (ds.filter fun d => d.live.contains true) c := by
    intro color r t tc
    induction ds with
    | nil => intro k c; rfl
    | cons d ds ih =>
      intro k c
      have hs := drawPointsLoop_cons env a color r t tc k d
      by_cases hd : d.live.contains true = true
      · rw [List.filter_cons, if_pos hd]
        have hn : ¬ (a.hideDeadPoints = true ∧ ∀ b ∈ d.live, b = false) := by
          rintro ⟨-, h⟩
          have := h true (by simpa using hd)
          cases this
        rw [drawPointsLoop, drawPointsLoop]
        have hc : ¬ (a.hideDeadPoints && !d.live.any (·)) = true := by
          intro h; apply hn; simpa using h
        rw [if_neg hc, if_neg hc]
        cases objColor env color d k with
        | none => rfl
        | some col => exact ih _ _
      · rw [List.filter_cons, if_neg hd, (hs ds c).1 hh, ih]
        intro b hb
        cases b with
        | false => rfl
        | true => exact absurd (by simpa using hb) hd
  unfold drawPoints
  simp only [key]

theorem drawPoints_cases (env : DrawEnv K H) (shape : List Nat) (a : DrawPointsArgs K)
    (ds : List (Drawable K H)) (c : Canvas K) (h : drawPoints env shape a (some ds) = some (some c)) :
    ∃ color r t tc, drawPointsLoop env a color r t tc 0 ds .base = some c ∧
      color = ((match a.colorByLabel with
        | some _ => some (ColorLike.str "by_label".toList)
        | none => a.color).getD (.str "by_id".toList)) ∧
      (∀ x, a.radius = some x → r = x) ∧
      (a.textColor = none → tc = none) ∧ (∀ x, a.textColor = some x → tc = parseColor x) := by
  unfold drawPoints at h
  simp only at h
  cases htc : a.textColor with
  | none =>
    rw [htc] at h
    simp only [Option.map_eq_some_iff] at h
    obtain ⟨c', h1, h2⟩ := h
    cases h2
    exact ⟨_, _, _, _, h1, rfl, (by intro x hx; rw [hx]; rfl), (fun _ => rfl), (by intro x hx; cases hx)⟩
  | some x =>
    rw [htc] at h
    cases hp : parseColor x with
    | none => simp [hp] at h
    | some col =>
      simp only [hp] at h
      simp only [Option.map_some, Option.map_eq_some_iff] at h
      obtain ⟨c', h1, h2⟩ := h
      cases h2
      exact ⟨_, _, _, _, h1, rfl, (by intro x hx; rw [hx]; rfl), (by intro hx; cases hx),
        (by intro y hy; cases hy; exact hp.symm)⟩

/-- C53: with `hide_dead_points` there is one circle for each live point of each object, in order, and
no other circle. -/
theorem C53_circles (env : DrawEnv K H) (shape : List Nat) (a : DrawPointsArgs K)
    (hh : a.hideDeadPoints = true) (hp : a.drawPoints = true) (ds : List (Drawable K H)) (c : Canvas K)
    (h : drawPoints env shape a (some ds) = some (some c)) :
    (circles c).map (·.1) = ds.flatMap livePositions := by
  obtain ⟨color, r, t, tc, hl, -⟩ := drawPoints_cases env shape a ds c h
  have key : ∀ (ds : List (Drawable K H)) k (c0 c : Canvas K),
      drawPointsLoop env a color r t tc k ds c0 = some c →
      (circles c).map (·.1) = (circles c0).map (·.1) ++ ds.flatMap livePositions := by
    intro ds
    induction ds with
    | nil =>
      intro k c0 c h
      cases h
      simp
    | cons d ds ih =>
      intro k c0 c h
      have hs := drawPointsLoop_cons env a color r t tc k d ds c0
      have hlive : livePositions d =
          ((d.points.zip d.live).filter fun p => p.2 || !a.hideDeadPoints).map
            fun p => p.1.map truncInt := by
        rw [hh, livePositions, ← zip_live]
        simp
      by_cases hd : ∀ b ∈ d.live, b = false
      · rw [hs.1 hh hd] at h
        rw [ih k c0 c h, List.flatMap_cons]
        have : livePositions d = [] := by
          rw [livePositions, List.filterMap_eq_nil_iff]
          intro i _
          split
          · rename_i hb
            have := hd true (List.mem_of_getElem? hb)
            cases this
          · rfl
        rw [this, List.nil_append]
      · have hs := hs.2 (fun h => hd h.2)
        cases ho : objColor env color d k with
        | none => rw [hs.1 ho] at h; cases h
        | some col =>
          obtain ⟨c', h1, h2, -⟩ := hs.2 col ho
          rw [h1] at h
          rw [ih _ c' c h, h2, if_pos hp, List.flatMap_cons, hlive]
          simp
  simpa [circles] using key ds 0 .base c hl

/-- C53: without `hide_dead_points` there is a circle for every point. -/
theorem C53_all_circles (env : DrawEnv K H) (shape : List Nat) (a : DrawPointsArgs K)
    (hh : a.hideDeadPoints = false) (hp : a.drawPoints = true) (ds : List (Drawable K H))
    (hlen : ∀ d ∈ ds, d.live.length = d.points.length) (c : Canvas K)
    (h : drawPoints env shape a (some ds) = some (some c)) :
    (circles c).map (·.1) = ds.flatMap fun d => d.points.map fun p => p.map truncInt := by
  obtain ⟨color, r, t, tc, hl, -⟩ := drawPoints_cases env shape a ds c h
  have key : ∀ (ds : List (Drawable K H)) k (c0 c : Canvas K),
      (∀ d ∈ ds, d.live.length = d.points.length) →
      drawPointsLoop env a color r t tc k ds c0 = some c →
      (circles c).map (·.1) = (circles c0).map (·.1) ++
        ds.flatMap fun d => d.points.map fun p => p.map truncInt := by
    intro ds
    induction ds with
    | nil =>
      intro k c0 c _ h
      cases h
      simp
    | cons d ds ih =>
      intro k c0 c hlen h
      have hs := (drawPointsLoop_cons env a color r t tc k d ds c0).2 (by simp [hh])
      cases ho : objColor env color d k with
      | none => rw [hs.1 ho] at h; cases h
      | some col =>
        obtain ⟨c', h1, h2, -⟩ := hs.2 col ho
        rw [h1] at h
        rw [ih _ c' c (fun d hd => hlen d (List.mem_cons_of_mem _ hd)) h, h2, if_pos hp,
          List.flatMap_cons, hh]
        have : (d.points.zip d.live).map (fun p => p.1.map truncInt) =
            d.points.map fun p => p.map (truncInt (K := K)) := by
          have := List.map_fst_zip (l₁ := d.points) (l₂ := d.live)
            (le_of_eq (hlen d (List.mem_cons_self ..)).symm)
          conv_rhs => rw [← this]
          rw [List.map_map]; rfl
        simp [← this]
  simpa [circles] using key ds 0 .base c hlen hl

/-- C53: every circle has the color chosen for its object: with `"by_id"` the color of the palette for the
id. -/
theorem C53_by_id (env : DrawEnv K H) (shape : List Nat) (a : DrawPointsArgs K)
    (hh : a.hideDeadPoints = true) (hp : a.drawPoints = true) (hc : a.color = some (.str "by_id".toList))
    (hcl : a.colorByLabel = none) (ds : List (Drawable K H)) (c : Canvas K)
    (h : drawPoints env shape a (some ds) = some (some c)) :
    (circles c).map (fun p => (p.1, some p.2)) =
      ds.flatMap fun d => (livePositions d).map fun p => (p, env.palette.choose (d.id.map env.hash)) := by
  obtain ⟨color, r, t, tc, hl, hcol, -⟩ := drawPoints_cases env shape a ds c h
  rw [hcl, hc] at hcol
  simp only [Option.getD_some] at hcol
  subst hcol
  have hobj : ∀ (d : Drawable K H) k,
      objColor env (.str "by_id".toList) d k = env.palette.choose (d.id.map env.hash) := by
    intro d k; rw [objColor, if_pos rfl]
  have key : ∀ (ds : List (Drawable K H)) k (c0 c : Canvas K),
      drawPointsLoop env a (.str "by_id".toList) r t tc k ds c0 = some c →
      (circles c).map (fun p => (p.1, some p.2)) = (circles c0).map (fun p => (p.1, some p.2)) ++
        ds.flatMap fun d => (livePositions d).map fun p => (p, env.palette.choose (d.id.map env.hash)) := by
    intro ds
    induction ds with
    | nil =>
      intro k c0 c h
      cases h
      simp
    | cons d ds ih =>
      intro k c0 c h
      have hs := drawPointsLoop_cons env a (.str "by_id".toList) r t tc k d ds c0
      have hlive : livePositions d =
          ((d.points.zip d.live).filter fun p => p.2 || !a.hideDeadPoints).map
            fun p => p.1.map truncInt := by
        rw [hh, livePositions, ← zip_live]
        simp
      by_cases hd : ∀ b ∈ d.live, b = false
      · rw [hs.1 hh hd] at h
        rw [ih k c0 c h, List.flatMap_cons]
        have : livePositions d = [] := by
          rw [livePositions, List.filterMap_eq_nil_iff]
          intro i _
          split
          · rename_i hb
            have := hd true (List.mem_of_getElem? hb)
            cases this
          · rfl
        rw [this, List.map_nil, List.nil_append]
      · have hs := hs.2 (fun h => hd h.2)
        cases ho : objColor env (.str "by_id".toList) d k with
        | none => rw [hs.1 ho] at h; cases h
        | some col =>
          obtain ⟨c', h1, h2, -⟩ := hs.2 col ho
          rw [h1] at h
          rw [hobj] at ho
          rw [ih _ c' c h, h2, if_pos hp, List.flatMap_cons, hlive, ho]
          simp [Function.comp_def]
  simpa [circles] using key ds 0 .base c hl

/-- C53: with colors from a palette that is not empty, `draw_points` does not raise -/
theorem C53_does_not_raise (env : DrawEnv K H) (hpal : env.palette.colors ≠ []) (shape : List Nat)
    (a : DrawPointsArgs K) (ht : a.textColor = none)
    (hc : a.color = none ∨ a.color = some (.str "by_id".toList) ∨ a.color = some (.str "by_label".toList) ∨
      a.color = some (.str "random".toList)) (ds : List (Drawable K H)) :
    ∃ c, drawPoints env shape a (some ds) = some (some c) := by
  have hch : ∀ h, ∃ col, env.palette.choose h = some col := by
    intro h
    cases h with
    | none => exact ⟨_, rfl⟩
    | some h =>
      obtain ⟨c, -, hc⟩ := C52_member_partial env.palette hpal h
      exact ⟨c, hc⟩
  have hobj : ∀ color (d : Drawable K H) k, color = .str "by_id".toList ∨ color = .str "by_label".toList ∨
      color = .str "random".toList → ∃ col, objColor env color d k = some col := by
    intro color d k hcol
    have n1 : ColorLike.str "by_label".toList ≠ .str "by_id".toList := by decide +kernel
    have n2 : ColorLike.str "random".toList ≠ .str "by_id".toList := by decide +kernel
    have n3 : ColorLike.str "random".toList ≠ .str "by_label".toList := by decide +kernel
    unfold objColor
    rcases hcol with rfl | rfl | rfl
    · rw [if_pos rfl]; exact hch _
    · rw [if_neg n1, if_pos rfl]; exact hch _
    · rw [if_neg n2, if_neg n3, if_pos rfl]; exact hch _
  have key : ∀ color r t tc, (color = .str "by_id".toList ∨ color = .str "by_label".toList ∨
      color = .str "random".toList) → ∀ k (c : Canvas K),
      ∃ c', drawPointsLoop env a color r t tc k ds c = some c' := by
    intro color r t tc hcol
    induction ds with
    | nil => intro k c; exact ⟨c, rfl⟩
    | cons d ds ih =>
      intro k c
      have hs := drawPointsLoop_cons env a color r t tc k d ds c
      by_cases hd : a.hideDeadPoints = true ∧ ∀ b ∈ d.live, b = false
      · rw [hs.1 hd.1 hd.2]; exact ih _ _
      · obtain ⟨col, ho⟩ := hobj color d k hcol
        obtain ⟨c', h1, -⟩ := (hs.2 hd).2 col ho
        rw [h1]; exact ih _ _
  unfold drawPoints
  simp only [ht]
  have hcol : ∀ x : Option ColorLike, (x = none ∨ x = some (.str "by_id".toList) ∨
      x = some (.str "by_label".toList) ∨ x = some (.str "random".toList)) →
      (x.getD (.str "by_id".toList) = .str "by_id".toList ∨
        x.getD (.str "by_id".toList) = .str "by_label".toList ∨
        x.getD (.str "by_id".toList) = .str "random".toList) := by
    rintro x (rfl | rfl | rfl | rfl) <;> simp
  cases a.colorByLabel with
  | none =>
    obtain ⟨c', h'⟩ := key _ (a.radius.getD (around (max (((shape.foldl max 0 : Nat) : K) * (2 / 1000)) 1)))
      (a.thickness.getD (-1)) none (hcol a.color hc) 0 .base
    exact ⟨c', by simp only [h', Option.map_some]⟩
  | some b =>
    obtain ⟨c', h'⟩ := key _ (a.radius.getD (around (max (((shape.foldl max 0 : Nat) : K) * (2 / 1000)) 1)))
      (a.thickness.getD (-1)) none (hcol (some (.str "by_label".toList)) (by simp)) 0 .base
    exact ⟨c', by simp only [h', Option.map_some]⟩

/-- C53: the deprecated argument `color_by_label=False` also switches to colors by label -/
theorem C53_color_by_label (env : DrawEnv K H) (shape : List Nat) (a : DrawPointsArgs K) (b : Bool)
    (ds : Option (List (Drawable K H))) :
    drawPoints env shape { a with colorByLabel := some b } ds =
      drawPoints env shape { a with colorByLabel := none, color := some (.str "by_label".toList) } ds := by
  have key : ∀ color r t tc (ds : List (Drawable K H)) k (c : Canvas K) cl cl' col',
      drawPointsLoop env { a with colorByLabel := cl } color r t tc k ds c =
      drawPointsLoop env { a with colorByLabel := cl', color := col' } color r t tc k ds c := by
    intro color r t tc ds
    induction ds with
    | nil => intros; rfl
    | cons d ds ih =>
      intro k c cl cl' col'
      rw [drawPointsLoop, drawPointsLoop]
      simp only
      rw [ih k c cl cl' col']
      cases objColor env color d k with
      | none => rfl
      | some col =>
        simp only
        rw [ih _ _ cl cl' col']
  unfold drawPoints
  cases ds with
  | none => rfl
  | some ds =>
    simp only [key _ _ _ _ ds 0 .base (some b) none (some (.str "by_label".toList))]

end

/-- C53: three points, one of them dead, and an object without live points: two circles. -/
def toyDrawables : List (Drawable ℚ Nat) :=
  [⟨[[1, 2], [3, 4], [-5 / 2, 7 / 2]], some 1, none, none, [true, false, true]⟩,
   ⟨[[9, 9]], some 2, none, none, [false]⟩]

/-- an environment for the examples -/
def toyEnv : DrawEnv ℚ Nat where
  hash := fun n => pyHashInt n
  str := fun n => List.replicate (n + 1) 'x'
  fmt := fun _ => ['s']
  palette := ⟨[[0, 0, 0], [1, 1, 1], [2, 2, 2]], [7, 7, 7]⟩
  rnd := fun _ => 5

example : (drawPoints toyEnv [100, 200, 3] {} (some toyDrawables)).map
    (fun c => c.map circles) = some (some [([1, 2], [1, 1, 1]), ([-2, 3], [1, 1, 1])]) := by
  decide +kernel

example : (drawPoints toyEnv [100, 200, 3] {} (some toyDrawables)).map
    (fun c => c.map fun c => (texts c).map fun t => (t.1, t.2.1)) =
    some (some [(['x', 'x'], some [-1, 1])]) := by
  decide +kernel

/-- C53: with `hide_dead_points=False` the text of an object without live points is put at a position
computed from NaN -/
theorem C53_nan_position : (drawPoints toyEnv [100, 200, 3] { hideDeadPoints := false }
    (some toyDrawables)).map (fun c => c.map fun c => (texts c).map (·.2.1)) =
    some (some [some [-1, 1], none]) := by
  decide +kernel

/-! ### C69: boxes -/

section
variable [Field K] [LinearOrder K] [FloorRing K]

/-- one step of the loop of `draw_boxes`, for a box: two points in the plane -/
theorem drawBoxesLoop_cons (env : DrawEnv K H) (a : DrawBoxesArgs K) (color : ColorLike) (t : ℤ)
    (tc : Option Color) (k : Nat) (d : Drawable K H) (ds : List (Drawable K H)) (c : Canvas K)
    (x0 y0 x1 y1 : K) (hd : d.points = [[x0, y0], [x1, y1]]) (col : Color)
    (ho : objColor env color d k = some col) : ∃ c',
      drawBoxesLoop env a color t tc k (d :: ds) c = drawBoxesLoop env a color t tc (k + 1) ds c' ∧
      rectangles c' = rectangles c ++ (if a.drawBox then
        [([truncInt x0, truncInt y0], [truncInt x1, truncInt y1], t, col)] else []) ∧
      texts c' = texts c ++
        (if buildText env.str env.fmt d a.drawLabels a.drawIds a.drawScores = [] then [] else
          [(buildText env.str env.fmt d a.drawLabels a.drawIds a.drawScores,
            some [truncInt x0 - t / 2, truncInt y0 - t / 2 - 1], tc.getD col)]) := by
  rw [drawBoxesLoop]
  simp only [ho, hd, List.map_cons, List.map_nil]
  generalize buildText env.str env.fmt d a.drawLabels a.drawIds a.drawScores = txt
  cases a.drawBox
  · by_cases ht : txt = []
    · refine ⟨c, ?_, ?_, ?_⟩ <;> simp [ht]
    · refine ⟨c.text txt (some [truncInt x0 - t / 2, truncInt y0 - t / 2 - 1]) (tc.getD col) (a.labelSize.or a.textSize)
        a.textThickness, ?_, ?_, ?_⟩
      · simp [ht]
      · simp [rectangles]
      · simp [ht, texts]
  · by_cases ht : txt = []
    · refine ⟨c.rectangle [truncInt x0, truncInt y0] [truncInt x1, truncInt y1] t col, ?_, ?_, ?_⟩
      · simp [ht]
      · simp [rectangles]
      · simp [ht, texts]
    · refine ⟨(c.rectangle [truncInt x0, truncInt y0] [truncInt x1, truncInt y1] t col).text txt
        (some [truncInt x0 - t / 2, truncInt y0 - t / 2 - 1]) (tc.getD col) (a.labelSize.or a.textSize)
        a.textThickness, ?_, ?_, ?_⟩
      · simp [ht]
      · simp [rectangles]
      · simp [ht, texts]

/-- the number `n` is `x` without the digits after the decimal point: the whole number next to `x` on the side of 0 -/
def CutOff (x : K) (n : ℤ) : Prop :=
  (0 ≤ x → (n : K) ≤ x ∧ x < n + 1) ∧ (x < 0 → x ≤ n ∧ (n : K) - 1 < x)

/-- C69 (also for C53, C70, C71, C79, C89 and C90): coordinates become whole pixels by cutting off the digits after the
decimal point, towards 0 on both sides. -/
theorem C69_whole_pixels [IsStrictOrderedRing K] (x : K) (n : ℤ) : truncInt x = n ↔ CutOff x n := by
  unfold truncInt CutOff
  split
  · rename_i h0
    rw [Int.floor_eq_iff]
    exact ⟨fun h => ⟨fun _ => h, fun h' => absurd h0 (not_le.mpr h')⟩, fun h => h.1 h0⟩
  · rename_i h0
    rw [Int.ceil_eq_iff]
    exact ⟨fun h => ⟨fun h' => absurd h' h0, fun _ => ⟨h.2, h.1⟩⟩,
      fun h => ⟨(h.2 (not_le.mp h0)).2, (h.2 (not_le.mp h0)).1⟩⟩

example : CutOff (-27 / 10 : ℚ) (-2) ∧ ¬ CutOff (-27 / 10 : ℚ) (-3) ∧ CutOff (27 / 10 : ℚ) 2 := by
  unfold CutOff; norm_num

/-- the box of a drawable, in whole pixels -/
def boxOf (d : Drawable K H) : List (List ℤ) := d.points.map fun p => p.map truncInt

/-- C69: `draw_boxes` draws the box of every object, in order, in the color of its object, and writes the
text of every object that has one, in this color or in the color given for texts, just above the upper
left corner. It does not raise, and `thickness` is the one given or 1/500 of the largest size of the frame. -/
theorem C69_boxes (env : DrawEnv K H) (hpal : env.palette.colors ≠ []) (shape : List Nat)
    (a : DrawBoxesArgs K) (hb : a.drawBox = true) (hc : a.color = some (.str "by_id".toList))
    (hr : a.randomColor = none) (hl : a.colorByLabel = none) (hlc : a.lineColor = none)
    (htc : a.textColor = none) (ds : List (Drawable K H))
    (hbox : ∀ d ∈ ds, ∃ x0 y0 x1 y1, d.points = [[x0, y0], [x1, y1]]) :
    ∃ c t, drawBoxes env shape a (some ds) = some c ∧
      (∀ w, a.lineWidth = some w → t = w) ∧
      (a.lineWidth = none → ∀ w, a.thickness = some w → t = w) ∧
      (a.lineWidth = none → a.thickness = none → t = truncInt (((shape.foldl max 0 : Nat) : K) / 500)) ∧
      (rectangles c).map (fun r => ([r.1, r.2.1], r.2.2.1, some r.2.2.2)) =
        ds.map (fun d => (boxOf d, t, env.palette.choose (d.id.map env.hash))) ∧
      (texts c).map (fun x => (x.1, x.2.1, some x.2.2)) =
        (ds.filter fun d => decide
            (buildText env.str env.fmt d a.drawLabels a.drawIds a.drawScores ≠ [])).map fun d =>
          (buildText env.str env.fmt d a.drawLabels a.drawIds a.drawScores,
            some [((boxOf d).headD []).getD 0 0 - t / 2, ((boxOf d).headD []).getD 1 0 - t / 2 - 1],
            env.palette.choose (d.id.map env.hash)) := by
  have key : ∀ t k (c : Canvas K),
      ∃ c', drawBoxesLoop env a (.str "by_id".toList) t none k ds c = some c' ∧
      (rectangles c').map (fun r => ([r.1, r.2.1], r.2.2.1, some r.2.2.2)) =
        (rectangles c).map (fun r => ([r.1, r.2.1], r.2.2.1, some r.2.2.2)) ++
        ds.map (fun d => (boxOf d, t, env.palette.choose (d.id.map env.hash))) ∧
      (texts c').map (fun x => (x.1, x.2.1, some x.2.2)) =
        (texts c).map (fun x => (x.1, x.2.1, some x.2.2)) ++ (ds.filter fun d => decide
            (buildText env.str env.fmt d a.drawLabels a.drawIds a.drawScores ≠ [])).map fun d =>
          (buildText env.str env.fmt d a.drawLabels a.drawIds a.drawScores,
            some [((boxOf d).headD []).getD 0 0 - t / 2, ((boxOf d).headD []).getD 1 0 - t / 2 - 1],
            env.palette.choose (d.id.map env.hash)) := by
    intro t
    induction ds with
    | nil => intro k c; exact ⟨c, rfl, by simp, by simp⟩
    | cons d ds ih =>
      intro k c
      obtain ⟨x0, y0, x1, y1, hd⟩ := hbox d (List.mem_cons_self ..)
      have hch : ∃ col, env.palette.choose (d.id.map env.hash) = some col := by
        cases d.id.map env.hash with
        | none => exact ⟨_, rfl⟩
        | some h =>
          obtain ⟨c, -, hc⟩ := C52_member_partial env.palette hpal h
          exact ⟨c, hc⟩
      obtain ⟨col, hcol⟩ := hch
      obtain ⟨c1, e1, e2, e3⟩ := drawBoxesLoop_cons env a (.str "by_id".toList) t none k d ds c x0 y0 x1 y1
        hd col (by rw [objColor, if_pos rfl]; exact hcol)
      obtain ⟨c', h1, h2, h3⟩ := ih (fun d hd => hbox d (List.mem_cons_of_mem _ hd)) (k + 1) c1
      have hbd : boxOf d = [[truncInt x0, truncInt y0], [truncInt x1, truncInt y1]] := by
        rw [boxOf, hd]; rfl
      refine ⟨c', by rw [e1, h1], ?_, ?_⟩
      · rw [h2, e2, if_pos hb]
        simp [hbd, hcol]
      · rw [h3, e3]
        by_cases ht : buildText env.str env.fmt d a.drawLabels a.drawIds a.drawScores = []
        · rw [if_pos ht, List.filter_cons, if_neg (by simp [ht])]
          simp
        · rw [if_neg ht, List.filter_cons, if_pos (by simp [ht])]
          simp [hbd, hcol]
  unfold drawBoxes
  simp only [hr, hl, hlc, hc, htc, Option.getD_some]
  obtain ⟨c, h1, h2, h3⟩ := key ((match a.lineWidth with
      | some w => some w
      | none => a.thickness).getD (truncInt (((shape.foldl max 0 : Nat) : K) / 500))) 0 .base
  refine ⟨c, _, h1, ?_, ?_, ?_, by simpa [rectangles] using h2, by simpa [texts] using h3⟩
  · intro w hw; rw [hw]; rfl
  · intro hw w ht; rw [hw, ht]; rfl
  · intro hw ht; rw [hw, ht]; rfl

/-- C69: without objects the frame is returned unchanged; `draw_points` returns `None` instead -/
theorem C69_no_drawables (env : DrawEnv K H) (shape : List Nat) (a : DrawBoxesArgs K) (b : DrawPointsArgs K) :
    drawBoxes env shape a none = some .base ∧ drawPoints env shape b none = some none := ⟨rfl, rfl⟩

/-- C69: an object with fewer than two points makes `draw_boxes` raise -/
theorem C69_no_box (env : DrawEnv K H) (shape : List Nat) (a : DrawBoxesArgs K) (hb : a.drawBox = true)
    (d : Drawable K H) (hd : d.points.length < 2) (ds : List (Drawable K H)) :
    drawBoxes env shape a (some (d :: ds)) = none := by
  have key : ∀ color t tc, drawBoxesLoop env a color t tc 0 (d :: ds) (.base : Canvas K) = none := by
    intro color t tc
    rw [drawBoxesLoop]
    cases objColor env color d 0 with
    | none => rfl
    | some col =>
      match hp : d.points, hd with
      | [], _ => simp [hb]
      | [p], _ => simp [hb]
      | p :: q :: l, h => simp at h
  unfold drawBoxes
  simp only [key]
  cases a.textColor with
  | none => rfl
  | some x => cases h : parseColor x <;> simp [h]

end

/-- C69: two boxes, one of them without a text -/
example : let ds : List (Drawable ℚ Nat) :=
      [⟨[[1, 2], [7 / 2, 4]], some 1, none, none, [true, true]⟩,
       ⟨[[0, 9], [9, 18]], none, none, none, [false, false]⟩]
    (drawBoxes toyEnv [1000, 200, 3] {} (some ds)).map rectangles =
      some [([1, 2], [3, 4], 2, [1, 1, 1]), ([0, 9], [9, 18], 2, [7, 7, 7])] ∧
    (drawBoxes toyEnv [1000, 200, 3] {} (some ds)).map (fun c => (texts c).map fun t => (t.1, t.2.1)) =
      some [(['x', 'x'], some [0, 0])] ∧
    (∀ d ∈ ds, ∃ x0 y0 x1 y1, d.points = [[x0, y0], [x1, y1]]) ∧ toyEnv.palette.colors ≠ [] := by
  refine ⟨by decide +kernel, by decide +kernel, ?_, by decide +kernel⟩
  intro d hd
  simp only [List.mem_cons, List.not_mem_nil, or_false] at hd
  rcases hd with rfl | rfl <;> exact ⟨_, _, _, _, rfl⟩

/-! ### C71: the grid -/

section
variable [Field K] [LinearOrder K] [FloorRing K]

/-- C71: `draw_absolute_grid` draws a cross, two lines, at exactly the points of the transformed grid that
are inside the frame (including its border), and nothing else. -/
theorem C71_grid (grid : List (K × K)) (f : Option (List (K × K) → List (K × K))) (h w : Nat)
    (r t : ℤ) (col : Color) :
    lines (drawAbsoluteGrid grid f h w r t col) =
      ((f.getD id grid).filter fun p => decide (0 ≤ p.1 ∧ p.1 ≤ (w : K) ∧ 0 ≤ p.2 ∧ p.2 ≤ (h : K))).flatMap fun p =>
        [([truncInt p.1, truncInt p.2 - r], [truncInt p.1, truncInt p.2 + r]),
         ([truncInt p.1 - r, truncInt p.2], [truncInt p.1 + r, truncInt p.2])] := by
  have key : ∀ (l : List (K × K)) (c : Canvas K),
      lines (l.foldl (fun c p => c.cross (truncInt p.1) (truncInt p.2) r t col) c) = lines c ++
        l.flatMap fun p =>
          [([truncInt p.1, truncInt p.2 - r], [truncInt p.1, truncInt p.2 + r]),
           ([truncInt p.1 - r, truncInt p.2], [truncInt p.1 + r, truncInt p.2])] := by
    intro l
    induction l with
    | nil => intro c; simp
    | cons p l ih =>
      intro c
      rw [List.foldl_cons, ih]
      simp [Canvas.cross, lines]
  unfold drawAbsoluteGrid
  rw [key]
  simp only [lines, List.nil_append]
  have hf : ∀ l : List (K × K),
      (l.filter fun p => decide (p.1 ≤ (w : K) ∧ p.2 ≤ (h : K)) && decide (0 ≤ p.1 ∧ 0 ≤ p.2)) =
      l.filter fun p => decide (0 ≤ p.1 ∧ p.1 ≤ (w : K) ∧ 0 ≤ p.2 ∧ p.2 ≤ (h : K)) := by
    intro l
    apply List.filter_congr
    intro p _
    rw [Bool.eq_iff_iff]
    simp only [Bool.and_eq_true, decide_eq_true_eq]
    tauto
  rw [hf]
  cases f <;> rfl

end

/-- C71: four points, two of them visible -/
example : lines (drawAbsoluteGrid [((0 : ℚ), 0), (5, 5), (6, 5), (-1, 3)]
    (some fun l => l.map fun p => (p.1 + 1 / 2, p.2)) 5 6 1 1 []) =
    [([0, -1], [0, 1]), ([-1, 0], [1, 0]), ([5, 4], [5, 6]), ([4, 5], [6, 5])] := by decide +kernel

/-! ### C70: paths -/

/-- the circles on a mask, with the factors by which they were attenuated since they were drawn -/
def faded [One K] [Mul K] : Canvas K → List (List ℤ × ℤ × ℤ × Color × K)
  | .base => []
  | .black => []
  | .scaled c f => (faded c).map fun p => (p.1, p.2.1, p.2.2.1, p.2.2.2.1, f * p.2.2.2.2)
  | .circle c p r t col => faded c ++ [(p, r, t, col, 1)]
  | .line c _ _ _ _ => faded c
  | .rectangle c _ _ _ _ => faded c
  | .text c _ _ _ _ _ => faded c
  | .blend a b _ _ => faded b ++ faded a

section
variable [Field K] [LinearOrder K] [FloorRing K]

omit [LinearOrder K] [FloorRing K] in
theorem faded_circlesAt [LinearOrder K] [FloorRing K] (r t : ℤ) (col : Color) (ps : List (List K))
    (c : Canvas K) :
    faded (circlesAt r t col ps c) = faded c ++ ps.map fun p => (p.map truncInt, r, t, col, 1) := by
  unfold circlesAt
  induction ps generalizing c with
  | nil => simp
  | cons p ps ih => rw [List.foldl_cons, ih]; simp [faded]

/-- the color of an object on a path: the one given, or the one of the palette -/
def pathColor (hash : H → ℤ) (pal : Palette) (color : Option Color) (o : PathObj K H) : Option Color :=
  match color with
  | some c => some c
  | none => pal.choose (o.id.map hash)

theorem pathsLoop_faded (hash : H → ℤ) (pal : Palette) (get : List (List K) → List (List K))
    (color : Option Color) (r t : ℤ) (objs : List (PathObj K H)) : ∀ (m m' : Canvas K),
    Paths.loop hash pal get color r t objs m = some m' →
    (faded m').map (fun p => (p.1, p.2.1, p.2.2.1, some p.2.2.2.1, p.2.2.2.2)) =
      (faded m).map (fun p => (p.1, p.2.1, p.2.2.1, some p.2.2.2.1, p.2.2.2.2)) ++
      objs.flatMap fun o => (get o.estimate).map fun p =>
        (p.map truncInt, r, t, pathColor hash pal color o, 1) := by
  induction objs with
  | nil => intro m m' h; cases h; simp
  | cons o os ih =>
    intro m m' h
    simp only [Norfair.Paths.loop] at h
    cases hc : pathColor hash pal color o with
    | none =>
      unfold pathColor at hc
      cases color with
      | none => simp only at hc; simp [hc] at h
      | some c => cases hc
    | some c =>
      have h : Paths.loop hash pal get color r t os (circlesAt r t c (get o.estimate) m) = some m' := by
        unfold pathColor at hc
        cases color with
        | none => simp only at hc; simpa [hc] using h
        | some c' => cases hc; exact h
      rw [ih _ _ h, faded_circlesAt]
      simp [hc]

/-- `Paths.draw` on one frame after the other; the frames may have different heights -/
def Paths.run (hash : H → ℤ) (pal : Palette) (get : List (List K) → List (List K)) (color : Option Color)
    (att : K) : Paths K → List (Nat × List (PathObj K H)) → Option (Paths K)
  | s, [] => some s
  | s, f :: fs =>
    match Paths.draw hash pal get color att f.1 s f.2 with
    | none => none
    | some (s', _) => Paths.run hash pal get color att s' fs

theorem pathsRun_append (hash : H → ℤ) (pal : Palette) (get : List (List K) → List (List K))
    (color : Option Color) (att : K) (fs gs : List (Nat × List (PathObj K H))) : ∀ s,
    Paths.run hash pal get color att s (fs ++ gs) =
      (Paths.run hash pal get color att s fs).bind fun s => Paths.run hash pal get color att s gs := by
  induction fs with
  | nil => intro s; rfl
  | cons f fs ih =>
    intro s
    simp only [List.cons_append, Paths.run]
    cases Paths.draw hash pal get color att f.1 s f.2 with
    | none => rfl
    | some q => exact ih q.1

/-- the circles of the paths that should be on the mask: those of all frames, of the given radius and
thickness, each attenuated once for each frame after its own -/
def pathCircles (hash : H → ℤ) (pal : Palette) (get : List (List K) → List (List K)) (color : Option Color)
    (att : K) (r t : ℤ) (fs : List (Nat × List (PathObj K H))) :
    List (List ℤ × ℤ × ℤ × Option Color × K) :=
  fs.zipIdx.flatMap fun f => f.1.2.flatMap fun o => (get o.estimate).map fun p =>
    (p.map truncInt, r, t, pathColor hash pal color o, att ^ (fs.length - 1 - f.2))

/-- C70: after any number of frames the mask of `Paths` holds the circles of all frames, oldest first,
attenuated once for each later frame. The size of all circles is fixed in the first frame. -/
theorem C70_mask (hash : H → ℤ) (pal : Palette) (get : List (List K) → List (List K))
    (color : Option Color) (att : K) (radius thickness : Option ℤ) (height : Nat)
    (objs : List (PathObj K H)) (fs : List (Nat × List (PathObj K H))) (s : Paths K)
    (h : Paths.run hash pal get color att ⟨radius, thickness, none⟩ ((height, objs) :: fs) = some s) :
    ∃ m, s.mask = some m ∧
      (faded m).map (fun p => (p.1, p.2.1, p.2.2.1, some p.2.2.2.1, p.2.2.2.2)) =
        pathCircles hash pal get color att (radius.getD (truncInt (max ((height : K) / 100 * (7 / 10)) 1)))
          (thickness.getD (truncInt (max ((height : K) / 100 / 7) 1))) ((height, objs) :: fs) := by
  suffices H : ∃ m, s.mask = some m ∧
      s.radius = some (radius.getD (truncInt (max ((height : K) / 100 * (7 / 10)) 1))) ∧
      s.thickness = some (thickness.getD (truncInt (max ((height : K) / 100 / 7) 1))) ∧
      (faded m).map (fun p => (p.1, p.2.1, p.2.2.1, some p.2.2.2.1, p.2.2.2.2)) =
        pathCircles hash pal get color att (radius.getD (truncInt (max ((height : K) / 100 * (7 / 10)) 1)))
          (thickness.getD (truncInt (max ((height : K) / 100 / 7) 1))) ((height, objs) :: fs) by
    obtain ⟨m, h1, -, -, h2⟩ := H
    exact ⟨m, h1, h2⟩
  induction fs using List.reverseRecOn generalizing s with
  | nil =>
    simp only [Paths.run, Paths.draw, Option.getD_some] at h
    cases hl : Paths.loop hash pal get color
        (radius.getD (truncInt (max ((height : K) / 100 * (7 / 10)) 1)))
        (thickness.getD (truncInt (max ((height : K) / 100 / 7) 1))) objs (Canvas.black.scaled att) with
    | none => rw [hl] at h; cases h
    | some m =>
      rw [hl] at h
      simp only [Option.some.injEq] at h
      subst h
      refine ⟨m, rfl, rfl, rfl, ?_⟩
      rw [pathsLoop_faded _ _ _ _ _ _ _ _ _ hl]
      simp [faded, pathCircles]
  | append_singleton fs g ih =>
    rw [← List.cons_append, pathsRun_append] at h
    cases h0 : Paths.run hash pal get color att ⟨radius, thickness, none⟩ ((height, objs) :: fs) with
    | none => rw [h0] at h; cases h
    | some s0 =>
      rw [h0] at h
      obtain ⟨m0, e1, e2, e3, e4⟩ := ih s0 h0
      simp only [Option.bind_some, Paths.run, Paths.draw, e1, e2, e3, Option.getD_some] at h
      cases hl : Paths.loop hash pal get color
          (radius.getD (truncInt (max ((height : K) / 100 * (7 / 10)) 1)))
          (thickness.getD (truncInt (max ((height : K) / 100 / 7) 1))) g.2 (m0.scaled att) with
      | none => rw [hl] at h; cases h
      | some m =>
        rw [hl] at h
        simp only [Option.some.injEq] at h
        subst h
        refine ⟨m, rfl, rfl, rfl, ?_⟩
        rw [pathsLoop_faded _ _ _ _ _ _ _ _ _ hl, faded, List.map_map]
        have e5 := congrArg (List.map fun p : List ℤ × ℤ × ℤ × Option Color × K =>
          (p.1, p.2.1, p.2.2.1, p.2.2.2.1, att * p.2.2.2.2)) e4
        rw [List.map_map] at e5
        rw [show ((fun p : List ℤ × ℤ × ℤ × Color × K => (p.1, p.2.1, p.2.2.1, some p.2.2.2.1, p.2.2.2.2)) ∘
            fun p : List ℤ × ℤ × ℤ × Color × K => (p.1, p.2.1, p.2.2.1, p.2.2.2.1, att * p.2.2.2.2)) =
          ((fun p : List ℤ × ℤ × ℤ × Option Color × K => (p.1, p.2.1, p.2.2.1, p.2.2.2.1, att * p.2.2.2.2)) ∘
            fun p : List ℤ × ℤ × ℤ × Color × K => (p.1, p.2.1, p.2.2.1, some p.2.2.2.1, p.2.2.2.2)) from rfl,
          e5]
        unfold pathCircles
        rw [← List.cons_append, List.zipIdx_append, List.flatMap_append, List.map_flatMap]
        congr 1
        · rw [List.flatMap_def, List.flatMap_def]
          congr 1
          refine List.map_congr_left fun f hf => ?_
          rw [List.map_flatMap]
          congr 1
          funext o
          rw [List.map_map]
          refine List.map_congr_left fun p _ => ?_
          have hlt : f.2 < ((height, objs) :: fs).length := by
            have := List.snd_lt_of_mem_zipIdx hf
            simpa using this
          simp only [Function.comp]
          rw [← pow_succ', show ((height, objs) :: fs).length - 1 - f.2 + 1 =
            ((height, objs) :: fs ++ [g]).length - 1 - f.2 by
              simp only [List.length_append, List.length_cons, List.length_nil] at hlt ⊢
              omega]
        · simp

/-- C70: the picture that is returned is the mask over the frame, both with weight 1 -/
theorem C70_returned (hash : H → ℤ) (pal : Palette) (get : List (List K) → List (List K))
    (color : Option Color) (att : K) (height : Nat) (s s' : Paths K) (objs : List (PathObj K H))
    (c : Canvas K) (h : Paths.draw hash pal get color att height s objs = some (s', c)) :
    ∃ m, s'.mask = some m ∧ c = .blend m .base 1 1 := by
  unfold Paths.draw at h
  simp only at h
  split at h
  · cases h
  · rename_i m _
    simp only [Option.some.injEq, Prod.mk.injEq] at h
    obtain ⟨rfl, rfl⟩ := h
    exact ⟨m, rfl, rfl⟩

/-- C70 (also for C50 and C89): unless the user says otherwise, the point that is drawn in a path for an object is
the mean of its points: one point, and each of its coordinates, times the number of points, is the sum of theirs. -/
theorem C70_default_point [Field K] [CharZero K] {ps : List (List K)} (h : ps ≠ []) :
    ∃ m, meanPoint ps = [m] ∧ m.length = (ps.headD []).length ∧
      ∀ j < m.length, ∃ x, m[j]? = some x ∧ x * ps.length = (ps.map fun p => p.getD j 0).sum := by
  have hl : ps.length ≠ 0 := by simpa using h
  unfold meanPoint meanRows
  rw [if_neg hl]
  refine ⟨_, rfl, by simp, fun j hj => ?_⟩
  simp only [Option.getD_some, List.length_map, List.length_range] at hj
  refine ⟨(ps.map fun p => p.getD j 0).sum / ps.length, ?_, ?_⟩
  · rw [Option.getD_some, List.getElem?_map, List.getElem?_range hj]
    simp only [Option.map_some]
    rw [← List.sum_eq_foldl]
  · have : (ps.length : K) ≠ 0 := by exact_mod_cast hl
    field_simp

example : meanPoint [[0, 0], [2, 4], [(4 : ℚ), 2]] = [[2, 2]] := by decide +kernel

end

/-- C70: two frames, one object each time; the first circle is attenuated once -/
example : ((Paths.run (fun n : Nat => (n : ℤ)) Palette.initial meanPoint (some [9]) (99 / 100 : ℚ)
    ⟨some 2, none, none⟩
    [(480, [⟨some 1, [[0, 0], [2, 4]], [], []⟩]), (480, [⟨some 1, [[2, 0], [2, 4]], [], []⟩])]).bind
      (·.mask)).map (fun m => (faded m).map fun p => (p.1, p.2.1, p.2.2.2.2)) =
    some [([1, 2], 2, 99 / 100), ([2, 2], 2, 1)] := by decide +kernel

end Norfair.Props
