import Verif.Spec.EyeLoop
import Verif.Props.PointLoop
import Verif.Props.Draw3d
import Verif.Props.Fading
import Verif.Props.Projection
import Verif.Props.NanVectorized

/-! C135: the loop of the 3D demo. -/

set_option linter.unusedSectionVars false

namespace Norfair.Props

open Norfair Norfair.Spec

variable {K L D F X H : Type}

section
variable [Field K] [LinearOrder K] [IsStrictOrderedRing K] [FloorRing K] [LinearOrder D] [OrderTop D] [Zero D]

/-! ### Detections and calls -/

theorem eyeDetections_eq (f : EyeFrame K) : eyeDetections f = some ((f.seen.getD []).map eyeDet) := by
  unfold eyeDetections
  cases f.seen with
  | none => rfl
  | some os => exact mapM_bind_map fun ps _ => ⟨_, rfl, rfl⟩

theorem eyeDet_shaped {n : Nat} {ps : List (K × K × K)} (h : ps.length = n) : DetShaped (n, 3) (eyeDet ps) := by
  have hl : (ps.flatMap fun p => [p.1, p.2.1, p.2.2]).length = n * 3 := by
    rw [List.length_flatMap, ← h]
    simp
  have hs : HasShape (n, 3) (eyeDet ps).points := ⟨h, rfl, by simpa [eyeDet, Nat.mul_comm] using hl⟩
  exact ⟨hs, hs, fun l e => by cases e⟩

/-! ### The boxes -/

theorem rows_triples {n : Nat} {p : Pts K} (hp : HasShape (n, 3) p) : p.rows.map rowPoint =
    (List.range n).map fun i => (p.data.getD (3 * i) 0, p.data.getD (3 * i + 1) 0, p.data.getD (3 * i + 2) 0) := by
  obtain ⟨h1, h2, h3⟩ := hp
  simp only at h1 h2 h3
  unfold Pts.rows
  rw [h1, h2, List.map_map]
  refine List.map_congr_left fun i hi => ?_
  rw [List.mem_range] at hi
  rw [Function.comp_apply, Nat.mul_comm i 3]
  have a1 : 3 * i < p.data.length := by omega
  have a2 : 3 * i + 1 < p.data.length := by omega
  have a3 : 3 * i + 2 < p.data.length := by omega
  rw [List.drop_eq_getElem_cons a1, List.drop_eq_getElem_cons a2, List.drop_eq_getElem_cons a3]
  simp only [List.getD_eq_getElem?_getD, List.getElem?_eq_getElem a1, List.getElem?_eq_getElem a2,
    List.getElem?_eq_getElem a3]
  rfl

/-- the projecter of the demo -/
theorem eyeStart_eq (f : EyeFrame K) :
    ∃ pr, eyeStart f = some (pr, ⟨none, none, none⟩) ∧ ∀ p, truncPoint (pr.eyeToPixel p) = pixelOf (f.w, f.h) p := by
  refine ⟨_, rfl, fun p => ?_⟩
  unfold truncPoint pixelOf Projecter.eyeToPixel Projecter.ofNdc
  simp only
  congr 2 <;> ring

theorem write3d (ras : Raster K) (a : List (Mark3d K)) (t : Mark3d K) (pic : Pic) :
    (a ++ [t]).foldl (Mark3d.put ras) pic = Mark3d.put ras (a.foldl (Mark3d.put ras) pic) t := by
  rw [List.foldl_append]
  rfl

theorem eyePicture_eq (dr : EvalDraw K Unit H) (hpal : dr.env.palette.colors ≠ []) (flt : FilterOps K F) (alive : Bool)
    {f : EyeFrame K} (hh : 0 < f.h) {pr : Projecter K} (hpr : ∀ p, truncPoint (pr.eyeToPixel p) = pixelOf (f.w, f.h) p)
    (act : List (Obj K Unit D F)) (ho : ∀ o ∈ act, HasShape (9, 3) (o.estimate flt) ∧ ∃ i, o.id = some i) :
    eyePicture dr flt pr alive f act = some (withBoxes3d dr flt (f.w, f.h) alive f.pic act) := by
  unfold eyePicture draw3dTrackedBoxes withBoxes3d
  simp only [Option.getD_none]
  have e1 : truncInt ((f.h : K) / 100 * (1 / 2)) = ((f.h / 200 : Nat) : ℤ) := by
    rw [← truncInt_natDiv (K := K) f.h 200 (by decide)]
    congr 1
    push_cast
    ring
  have e2 : truncInt ((f.h : K) / 100 / 5) = ((f.h / 500 : Nat) : ℤ) := by
    rw [← truncInt_natDiv (K := K) f.h 500 (by decide)]
    congr 1
    push_cast
    ring
  have e3 : (f.h : K) / 100 / 10 = (f.h : K) / 1000 := by ring
  have hpos : (0 : K) < (f.h : K) / 1000 := by
    have : (0 : K) < f.h := by exact_mod_cast hh
    positivity
  rw [e1, e2, e3]
  suffices key : ∀ n (pic : Pic), (draw3dLoop (fun i => dr.env.palette.choose (some (dr.env.hash (dr.idOf i))))
      (fun i => dr.env.str (dr.idOf i)) pr.eyeToPixel { onlyAlive := alive } ((f.h / 200 : Nat) : ℤ) ((f.h : K) / 1000)
      ((f.h / 500 : Nat) : ℤ) n (act.map (obj3d flt))).map (fun ms => ms.foldl (Mark3d.put dr.ras) pic) =
      some ((act.filter fun o => !alive || o.pointHits.any fun c => decide (0 < c)).foldl (boxOn dr flt (f.w, f.h)) pic) from
    key 0 f.pic
  clear e1 e2 e3
  induction act with
  | nil => intro n pic; rfl
  | cons o os ih =>
    intro n pic
    have ih := ih fun o ho' => ho o (List.mem_cons_of_mem _ ho')
    obtain ⟨hs, i, hi⟩ := ho o List.mem_cons_self
    rw [List.map_cons, draw3dLoop]
    have hany : (obj3d flt o).live.any id = o.pointHits.any fun c => decide (0 < c) := by
      simp [obj3d, Obj.livePoints, List.any_map, Function.comp_def]
    by_cases hk : (!alive || o.pointHits.any fun c => decide (0 < c)) = true
    · rw [List.filter_cons_of_pos (by simpa using hk), List.foldl_cons, if_neg (by
        rw [hany]; revert hk; cases alive <;> cases o.pointHits.any fun c => decide (0 < c) <;> simp)]
      have hest := rows_triples hs
      have hc : dr.env.palette.choose (some (dr.env.hash (dr.idOf i))) = some (idColor dr o) := by
        unfold idColor
        rw [hi]
        exact choose_some dr hpal _
      have hobj : ∃ l, draw3dObject (fun i => dr.env.palette.choose (some (dr.env.hash (dr.idOf i))))
          (fun i => dr.env.str (dr.idOf i)) pr.eyeToPixel { onlyAlive := alive } ((f.h / 200 : Nat) : ℤ) ((f.h : K) / 1000)
          ((f.h / 500 : Nat) : ℤ) n (obj3d flt o) = some l ∧
          l.foldl (Mark3d.put dr.ras) pic = boxOn dr flt (f.w, f.h) pic o := by
        have hz : ∀ i < 9, ((obj3d flt o).estimate.map pr.eyeToPixel)[i]? = some (pr.eyeToPixel
            ((o.estimate flt).data.getD (3 * i) 0, (o.estimate flt).data.getD (3 * i + 1) 0,
              (o.estimate flt).data.getD (3 * i + 2) 0)) := by
          intro i hi
          simp only [obj3d, hest, List.getElem?_map, List.getElem?_range hi, Option.map_some]
        unfold draw3dObject
        have hc' : color3d (fun i => dr.env.palette.choose (some (dr.env.hash (dr.idOf i)))) { onlyAlive := alive } n
            (obj3d flt o) = some (idColor dr o) := by
          simp only [color3d, obj3d, hi, Option.getD_some, hc]
        rw [hc', Option.bind_some, mapM_some_map (fun i hi => hz i (by revert i; decide)), Option.bind_some,
          hz 0 (by decide), Option.map_some]
        refine ⟨_, rfl, ?_⟩
        simp only [if_pos hpos, if_true, List.map_map]
        rw [show (truncPoint ∘ fun i => pr.eyeToPixel ((o.estimate flt).data.getD (3 * i) 0,
          (o.estimate flt).data.getD (3 * i + 1) 0, (o.estimate flt).data.getD (3 * i + 2) 0)) =
            cornerAt flt (f.w, f.h) o from funext fun i => hpr _, hpr]
        unfold boxOn idText
        simp only [hi, Option.elim_some, obj3d, Option.getD_some]
        rfl
      obtain ⟨l, hl, hl'⟩ := hobj
      rw [hl, Option.bind_some, ← hl', ← ih (n + 1)]
      rw [Option.map_map]
      congr 1
      funext ls
      rw [Function.comp_apply, List.foldl_append]
    · rw [List.filter_cons_of_neg (by simpa using hk), if_pos (by
        rw [hany]; revert hk; cases alive <;> cases o.pointHits.any fun c => decide (0 < c) <;> simp)]
      exact ih (n + 1) pic

/-! ### The paths -/

theorem truncInt_maxOne (m n : Nat) (hn : 0 < n) : truncInt (max ((m : K) / (n : K)) 1) = ((max (m / n) 1 : Nat) : ℤ) := by
  have hn' : (0 : K) < n := by exact_mod_cast hn
  rcases le_total ((m : K) / n) 1 with h | h
  · rw [max_eq_right h]
    have h1 : m ≤ n := by rw [div_le_one hn'] at h; exact_mod_cast h
    have : m / n ≤ 1 := by
      calc m / n ≤ n / n := Nat.div_le_div_right h1
        _ = 1 := Nat.div_self hn
    rw [max_eq_right this]
    have := truncInt_intCast (K := K) 1
    simpa using this
  · rw [max_eq_left h, truncInt_natDiv m n hn]
    have h1 : n ≤ m := by rw [le_div_iff₀ hn', one_mul] at h; exact_mod_cast h
    have : 1 ≤ m / n := (Nat.one_le_div_iff hn).mpr h1
    rw [max_eq_left this]

theorem trail_le (dr : EvalDraw K Unit H) (flt : FilterOps K F) (size : Nat × Nat) (objs : List (List (Obj K Unit D F)))
    (p : ℤ × ℤ) (ch : Nat) : trail dr flt size objs p ch ≤ 255 := by
  induction objs with
  | nil => simp [trail]
  | cons l old ih =>
    rw [trail]
    suffices key : ∀ (pic : Pic), pic p ch ≤ 255 → l.foldl (fun pic o =>
        paint (dr.ras.circle [(cornerAt flt size o 0).1, (cornerAt flt size o 0).2] (max (7 * size.2 / 1000) 1 : Nat)
          (max (size.2 / 700) 1 : Nat)) (idColor dr o) pic) pic p ch ≤ 255 by
      refine key _ ?_
      show trail dr flt size old p ch * 99 / 100 ≤ 255
      omega
    induction l with
    | nil => intro pic h; exact h
    | cons o l ih2 =>
      intro pic h
      refine ih2 _ ?_
      unfold paint
      beta_reduce
      split
      · exact toByte_le _
      · exact h

/-- the mask of the paths -/
def MaskIs (dr : EvalDraw K Unit H) (m : Canvas K) (pic : Pic) : Prop := ∀ shape frame, m.render dr.ras shape frame = pic

theorem pathsDraw_trail (dr : EvalDraw K Unit H) (hpal : dr.env.palette.colors ≠ []) (flt : FilterOps K F) {f : EyeFrame K}
    {pr : Projecter K} (hpr : ∀ p, truncPoint (pr.eyeToPixel p) = pixelOf (f.w, f.h) p)
    (old : List (List (Obj K Unit D F))) (st : Paths K)
    (hst : (old = [] ∧ st = ⟨none, none, none⟩) ∨ ∃ m, st = ⟨some (max (7 * f.h / 1000) 1 : Nat), some (max (f.h / 700) 1 : Nat), some m⟩ ∧
      MaskIs dr m (trail dr flt (f.w, f.h) old)) (act : List (Obj K Unit D F)) (ho : ∀ o ∈ act, HasShape (9, 3) (o.estimate flt)) :
    ∃ m, Paths.draw dr.env.hash dr.env.palette (eyeCenter pr) none (1 - 1 / 100) f.h st (act.map (pathObj flt dr.idOf)) =
      some (⟨some (max (7 * f.h / 1000) 1 : Nat), some (max (f.h / 700) 1 : Nat), some m⟩, m.blend .base 1 1) ∧
      MaskIs dr m (trail dr flt (f.w, f.h) (act :: old)) := by
  have e1 : truncInt (max ((f.h : K) / 100 * (7 / 10)) 1) = ((max (7 * f.h / 1000) 1 : Nat) : ℤ) := by
    rw [← truncInt_maxOne (K := K) (7 * f.h) 1000 (by decide)]
    congr 2
    push_cast
    ring
  have e2 : truncInt (max ((f.h : K) / 100 / 7) 1) = ((max (f.h / 700) 1 : Nat) : ℤ) := by
    rw [← truncInt_maxOne (K := K) f.h 700 (by decide)]
    congr 2
    push_cast
    ring
  -- the mask before
  obtain ⟨m0, hd, hm0⟩ : ∃ m0 : Canvas K, Paths.draw dr.env.hash dr.env.palette (eyeCenter pr) none (1 - 1 / 100) f.h st
      (act.map (pathObj flt dr.idOf)) =
      (match Paths.loop dr.env.hash dr.env.palette (eyeCenter pr) none ((max (7 * f.h / 1000) 1 : Nat) : ℤ)
        ((max (f.h / 700) 1 : Nat) : ℤ) (act.map (pathObj flt dr.idOf)) (m0.scaled (1 - 1 / 100)) with
      | none => none
      | some m => some (⟨some (max (7 * f.h / 1000) 1 : Nat), some (max (f.h / 700) 1 : Nat), some m⟩, m.blend .base 1 1)) ∧
      MaskIs dr m0 (trail dr flt (f.w, f.h) old) := by
    rcases hst with ⟨rfl, rfl⟩ | ⟨m, rfl, hm⟩
    · refine ⟨.black, ?_, fun _ _ => rfl⟩
      unfold Paths.draw
      simp only [Option.getD_none, Option.getD_some, e1, e2]
      rfl
    · exact ⟨m, rfl, hm⟩
  rw [hd]
  have hsc : MaskIs dr (m0.scaled (1 - 1 / 100)) fun p ch => trail dr flt (f.w, f.h) old p ch * 99 / 100 := by
    intro shape frame
    funext p ch
    simp only [Canvas.render]
    rw [hm0 shape frame]
    have hle := trail_le dr flt (f.w, f.h) old p ch
    generalize trail dr flt (f.w, f.h) old p ch = v at hle ⊢
    have : (v : K) * (1 - 1 / 100) = ((v * 99 : Nat) : K) / (100 : Nat) := by push_cast; ring
    rw [this, truncInt_natDiv _ _ (by decide)]
    omega
  clear hd hm0 hst
  rw [trail]
  generalize m0.scaled (1 - 1 / 100) = m at hsc ⊢
  generalize (fun p ch => trail dr flt (f.w, f.h) old p ch * 99 / 100 : Pic) = pic at hsc ⊢
  clear e1 e2 m0
  induction act generalizing m pic with
  | nil => exact ⟨m, rfl, hsc⟩
  | cons o os ih =>
    have hs := ho o List.mem_cons_self
    rw [List.map_cons, Norfair.Paths.loop]
    have hc : dr.env.palette.choose ((pathObj flt dr.idOf o).id.map dr.env.hash) = some (idColor dr o) := by
      unfold idColor pathObj
      simp only [Option.map_map]
      exact choose_some dr hpal _
    simp only [hc]
    refine ih (fun o ho' => ho o (List.mem_cons_of_mem _ ho')) _ _ fun shape frame => ?_
    have hr : rowPoint (((o.estimate flt).rows).getD 0 []) = ((o.estimate flt).data.getD 0 0, (o.estimate flt).data.getD 1 0,
        (o.estimate flt).data.getD 2 0) := by
      have := congrArg (fun l => l.getD 0 (0, 0, 0)) (rows_triples hs)
      have e : rowPoint (((o.estimate flt).rows).getD 0 []) = (((o.estimate flt).rows).map rowPoint).getD 0 (0, 0, 0) := by
        cases (o.estimate flt).rows with
        | nil => rfl
        | cons a l => rfl
      rw [e]
      exact this
    have hz : truncPoint (pr.eyeToPixel (rowPoint (((o.estimate flt).rows).getD 0 []))) = cornerAt flt (f.w, f.h) o 0 := by
      rw [hpr, hr]
      rfl
    show paint _ _ (m.render dr.ras shape frame) = _
    rw [hsc shape frame]
    simp only [List.map_cons, List.map_nil, truncInt_intCast]
    rw [← hz]
    rfl

/-! ### The loop -/

/-- the drawing alone -/
def eyeShots (dr : EvalDraw K Unit H) (flt : FilterOps K F) (alive paths : Bool) :
    Option (Projecter K × Paths K) → List (EyeFrame K × List (Obj K Unit D F)) → Option (List Pic)
  | _, [] => some []
  | st, x :: xs => (st <|> eyeStart x.1).bind fun st =>
      (eyeShot dr flt alive paths st x.1 x.2).bind fun s =>
        (eyeShots dr flt alive paths (some s.1) xs).map fun r => s.2 :: r

theorem eyeLoop_split (cfg : Cfg K Unit D F Unit) (dr : EvalDraw K Unit H) (alive paths : Bool) (xs : List (EyeFrame K × List Ref)) :
    ∀ (st : Option (Projecter K × Paths K)) (w : World K Unit D F Unit), eyeLoop cfg dr alive paths st w xs =
      (trackCalls cfg w (xs.map fun x => (some x.2, 1))).bind fun r =>
        (eyeShots dr cfg.flt alive paths st ((xs.map (·.1)).zip r.2)).map fun pics => (r.1, pics) := by
  induction xs with
  | nil => intro st w; rfl
  | cons x xs ih =>
    intro st w
    rw [eyeLoop, List.map_cons, trackCalls]
    cases hu : update cfg w (some x.2) 1 none with
    | mk w' res =>
      cases res with
      | error e => simp only [Option.bind_none, Option.bind_fun_none]
      | ok act =>
        simp only [ih, List.map_cons]
        cases ht : trackCalls cfg w' (xs.map fun x => ((some x.2, 1) : Option (List Ref) × Int)) with
        | none => simp
        | some r =>
          simp only [Option.bind_some, Option.map_some, List.zip_cons_cons, eyeShots]
          cases (st <|> eyeStart x.1) with
          | none => rfl
          | some st =>
            simp only [Option.bind_some]
            cases eyeShot dr cfg.flt alive paths st x.1 act with
            | none => rfl
            | some s =>
              simp only [Option.bind_some, Option.map_map]
              rfl

/-- what is drawn on the frames, with the objects of this frame and of the frames before, newest first -/
theorem eyeShots_eq (dr : EvalDraw K Unit H) (hpal : dr.env.palette.colors ≠ []) (flt : FilterOps K F) (alive paths : Bool)
    {size : Nat × Nat} (hh : 0 < size.2) (xs : List (EyeFrame K × List (Obj K Unit D F)))
    (hx : ∀ x ∈ xs, (x.1.w, x.1.h) = size ∧ ∀ o ∈ x.2, HasShape (9, 3) (o.estimate flt) ∧ ∃ i, o.id = some i) :
    ∀ (st : Option (Projecter K × Paths K)) (old : List (List (Obj K Unit D F))),
    (st = none ∧ old = [] ∨ ∃ pr ps, st = some (pr, ps) ∧ (∀ p, truncPoint (pr.eyeToPixel p) = pixelOf size p) ∧
      (paths = true → ∃ m, ps = ⟨some (max (7 * size.2 / 1000) 1 : Nat), some (max (size.2 / 700) 1 : Nat), some m⟩ ∧
        MaskIs dr m (trail dr flt size old))) →
    eyeShots dr flt alive paths st xs = some (xs.zipIdx.map fun y =>
      eyePic dr flt size alive paths y.1.1.pic (((xs.map (·.2)).take (y.2 + 1)).reverse ++ old)) := by
  induction xs with
  | nil => intro st old _; rfl
  | cons x xs ih =>
    intro st old hst
    obtain ⟨hsz, hobj⟩ := hx x List.mem_cons_self
    have hh' : 0 < x.1.h := by rw [← hsz] at hh; exact hh
    rw [eyeShots]
    obtain ⟨pr, ps, e, hpr, hps⟩ : ∃ pr ps, (st <|> eyeStart x.1) = some (pr, ps) ∧
        (∀ p, truncPoint (pr.eyeToPixel p) = pixelOf size p) ∧ (paths = true → (old = [] ∧ ps = ⟨none, none, none⟩) ∨
          ∃ m, ps = ⟨some (max (7 * size.2 / 1000) 1 : Nat), some (max (size.2 / 700) 1 : Nat), some m⟩ ∧
            MaskIs dr m (trail dr flt size old)) := by
      rcases hst with ⟨rfl, rfl⟩ | ⟨pr, ps, rfl, h1, h2⟩
      · obtain ⟨pr, h1, h2⟩ := eyeStart_eq x.1
        exact ⟨pr, _, by rw [h1]; rfl, by rw [← hsz]; exact h2, fun _ => .inl ⟨rfl, rfl⟩⟩
      · exact ⟨pr, ps, rfl, h1, fun h => .inr (h2 h)⟩
    rw [e, Option.bind_some, eyeShot]
    simp only
    rw [eyePicture_eq dr hpal flt alive hh' (by rw [hsz]; exact hpr) x.2 hobj, Option.bind_some, hsz]
    have tl : ∀ (y : (EyeFrame K × List (Obj K Unit D F)) × Nat),
        (((x :: xs).map (·.2)).take (y.2 + 1 + 1)).reverse ++ old = ((xs.map (·.2)).take (y.2 + 1)).reverse ++ (x.2 :: old) := by
      intro y
      rw [List.map_cons, List.take_succ_cons, List.reverse_cons, List.append_assoc]
      rfl
    have rest : ∀ st', (∃ pr ps, st' = some (pr, ps) ∧ (∀ p, truncPoint (pr.eyeToPixel p) = pixelOf size p) ∧
        (paths = true → ∃ m, ps = ⟨some (max (7 * size.2 / 1000) 1 : Nat), some (max (size.2 / 700) 1 : Nat), some m⟩ ∧
          MaskIs dr m (trail dr flt size (x.2 :: old)))) → ∀ pic, pic = eyePic dr flt size alive paths x.1.pic (x.2 :: old) →
        (eyeShots dr flt alive paths st' xs).map (fun r => pic :: r) = some ((x :: xs).zipIdx.map fun y =>
      eyePic dr flt size alive paths y.1.1.pic ((((x :: xs).map (·.2)).take (y.2 + 1)).reverse ++ old)) := by
      intro st' h pic hpic
      rw [ih (fun x hx' => hx x (List.mem_cons_of_mem _ hx')) st' (x.2 :: old) (.inr h), Option.map_some, List.zipIdx_cons,
        List.map_cons, hpic]
      congr 2
      rw [List.zipIdx_succ, List.map_map]
      exact List.map_congr_left fun y _ => congrArg (eyePic dr flt size alive paths y.1.1.pic) (tl y).symm
    cases paths with
    | false =>
      rw [if_neg (by decide), Option.bind_some]
      exact rest _ ⟨pr, ps, rfl, hpr, fun h => by cases h⟩ _ rfl
    | true =>
      rw [if_pos rfl]
      obtain ⟨m, hd, hm⟩ := pathsDraw_trail dr hpal flt (f := x.1) (by rw [hsz]; exact hpr) old ps (by
        have := hps rfl
        rw [← hsz] at this
        exact this) x.2 fun o ho => (hobj o ho).1
      rw [hd, Option.map_some, Option.bind_some]
      have hszz : x.1.h = size.2 := by rw [← hsz]
      rw [hsz] at hm
      refine rest _ ⟨pr, _, rfl, hpr, fun _ => ⟨m, by rw [hszz], hm⟩⟩ _ ?_
      unfold eyePic
      simp only [if_pos, List.headD_cons]
      funext p ch
      simp only [Canvas.render, one_mul]
      rw [← Nat.cast_add, around_natCast, toByte_nat, hm]

/-- **C135** What the 3D demo does with a video, exactly: it calls the tracker with the objects that the detector sees, frame
by frame; every frame is written once and in order, with the boxes and ids of the returned objects, and with their fading paths
if asked for. -/
theorem C135_pictures {cfg : Cfg K Unit D F Unit} {Ok : F → Prop} (hL : FilterLaws cfg.flt Ok) (dr : EvalDraw K Unit H)
    (hpal : dr.env.palette.colors ≠ []) (alive paths : Bool) (g : Nat) {size : Nat × Nat} (hh : 0 < size.2)
    (frames : List (EyeFrame K)) (hf : ∀ f ∈ frames, (f.w, f.h) = size ∧ ∀ ps ∈ f.seen.getD [], ps.length = 9) :
    eyeRun cfg dr alive paths g frames = (demoTrack cfg () () g (frames.map eyeCall)).map fun r =>
      (r.1, (frames.zip r.2).zipIdx.map fun y =>
        eyePic dr cfg.flt size alive paths y.1.1.pic ((r.2.take (y.2 + 1)).reverse)) := by
  unfold eyeRun
  rw [mapM_some_map fun f _ => eyeDetections_eq f, Option.bind_some, eyeLoop_split]
  have hnew : newDets (frames.map eyeCall) = frames.map fun f => (f.seen.getD []).map eyeDet := by
    unfold newDets
    rw [List.map_map]
    rfl
  have hlen : (refsFrom 0 (frames.map fun f => (f.seen.getD []).map eyeDet)).length = frames.length := by
    rw [refsFrom_length, List.length_map]
  have hfst : (frames.zip (refsFrom 0 (frames.map fun f => (f.seen.getD []).map eyeDet))).map (·.1) = frames :=
    List.map_fst_zip hlen.ge
  have hcalls : trackCalls cfg ⟨detHeap () () (frames.map fun f => (f.seen.getD []).map eyeDet).flatten, g, 0, 0, []⟩
      ((frames.zip (refsFrom 0 (frames.map fun f => (f.seen.getD []).map eyeDet))).map fun x =>
        ((some x.2, 1) : Option (List Ref) × Int)) = demoTrack cfg () () g (frames.map eyeCall) := by
    unfold demoTrack
    rw [hnew]
    congr 1
    rw [List.zip_map_left, List.map_map]
    rfl
  rw [hcalls, hfst]
  cases ht : demoTrack cfg () () g (frames.map eyeCall) with
  | none => rfl
  | some r =>
    obtain ⟨h1, h2⟩ := (demoTrack_shape hL () () g (s := (9, 3)) (fun l hl d hd => by
      rw [hnew] at hl
      obtain ⟨f, hf', rfl⟩ := List.mem_map.mp hl
      obtain ⟨ps, hps, rfl⟩ := List.mem_map.mp hd
      exact eyeDet_shaped ((hf f hf').2 ps hps))).1 r.1 r.2 ht
    have hlr : r.2.length = frames.length := by rw [h1, List.length_map]
    rw [Option.bind_some, eyeShots_eq dr hpal cfg.flt alive paths hh (frames.zip r.2) (fun x hx => by
      obtain ⟨a1, a2⟩ := List.of_mem_zip hx
      exact ⟨(hf x.1 a1).1, fun o ho => ⟨(h2 x.2 a2 o ho).1, (h2 x.2 a2 o ho).2.2⟩⟩) none [] (.inl ⟨rfl, rfl⟩)]
    have hsnd : (frames.zip r.2).map (·.2) = r.2 := List.map_snd_zip hlr.le
    rw [hsnd]
    simp only [List.append_nil, Option.map_some]

/-- **C135** The lines of a box are its edges. -/
theorem C135_sides (i j : Nat) : IsEdge i j ↔ (i, j) ∈ boxSides ∨ (j, i) ∈ boxSides := by
  constructor
  · intro h
    have hi : i ∈ List.range 9 := by rw [List.mem_range]; have := h.1; omega
    have hj : j ∈ List.range 9 := by rw [List.mem_range]; have := h.2.1; omega
    revert h
    revert j
    revert i
    decide
  · have key : ∀ p ∈ boxSides, IsEdge p.1 p.2 ∧ IsEdge p.2 p.1 := by decide
    rintro (h | h)
    · exact (key _ h).1
    · exact (key _ h).2

end

/-! ### To the end -/

section
variable [Field K] [LinearOrder K] [IsStrictOrderedRing K] [LinearOrder D] [OrderTop D] [Zero D] [DecidableEq L]

/-- the calls of a tracker with a distance that is a number for detections with a property of their points -/
theorem demoTrack_given {cfg : Cfg K L D F X} {Ok : F → Prop} (hL : FilterLaws cfg.flt Ok) (label : L) (extra : X) (g : Nat)
    {s : Nat × Nat} {G : Pts K → Prop} {calls : List (Option (List (Det K L X)) × Int)}
    (hd : ∀ l ∈ newDets calls, ∀ d ∈ l, DetShaped s d ∧ G d.points)
    {f : Det K L X → ObjView K L D F X → Option (Option D)} (hf : cfg.dist = .scalar f)
    (hD : ∀ d v, HasShape s d.points → G d.points → HasShape s (v.obj.estimate cfg.flt) → ∃ x, f d v = some (some x))
    (hre : cfg.reid = none) (hfill : cfg.thr ≤ cfg.fill) :
    ∃ r, demoTrack cfg label extra g calls = some r := by
  have h0 : (⟨detHeap label extra (newDets calls).flatten, g, 0, 0, []⟩ : World K L D F X).Initial := ⟨rfl, rfl, rfl⟩
  have hs : ∀ a b, Compat cfg a b → (fun _ : L => s) a = (fun _ : L => s) b := fun _ _ _ => rfl
  refine (trackCalls_induct (cfg := cfg) (E := fun _ _ => True)
    (P := fun dets _ ct w => CallShaped (fun _ => s) (dets.getD []) ct w.heap ∧ ct = none ∧
      ∀ r ∈ dets.getD [], G (w.heap r).points) (Q := fun d => DetShaped s d ∧ G d.points)
    (R := fun r => r < (newDets calls).flatten.length) (fun _ _ h => h) h0
    ((calls.zip (refsFrom 0 (newDets calls))).map fun c => (c.1.1.map fun _ => c.2, c.1.2)) _
    (fun c hc w hq => ?_) (.refl _) (fun r hr => by
      obtain ⟨l, hl, hm⟩ := detHeap_mem (label := label) (extra := extra) hr
      exact hd l hl _ hm)).2 fun w hw c hc hP => ?_
  · have hq : ∀ r ∈ c.1.getD [], DetShaped s (w.heap r) ∧ G (w.heap r).points := fun r hr => hq r (demoCalls_refs hc r hr)
    refine ⟨⟨⟨(fun c e => by cases e), fun r hr => ?_⟩, (fun c e => by cases e), fun r hr => (hq r hr).1.1⟩, rfl, fun r hr =>
      (hq r hr).2⟩
    obtain ⟨⟨-, ⟨e1, e2, e3⟩, e4⟩, -⟩ := hq r hr
    exact ⟨e1, e2, by rw [e3, e1, e2], fun y h => by rw [e4 y h, e1]⟩
  · obtain ⟨hcall, -, hG⟩ := hP
    have hback : ∀ o ∈ w.objs, BackShaped (fun _ => s) o :=
      Reaches.objInv hw (Inv.initial h0) (fun dets period ct w hc =>
        ⟨_, hc.1.points, backShaped_inv cfg (fun _ => s) (dets.getD []) period ct hc.1.keeps⟩) (fun _ _ _ _ _ h => h)
        (by simp)
    have hb := backShaped_inv cfg (fun _ => s) (c.1.getD []) c.2 none hcall.keeps
    have hQ : ObjInv cfg (c.1.getD []) c.2 none (fun h => (∀ r ∈ c.1.getD [], HasShape s (h r).points) ∧
        ∀ r ∈ c.1.getD [], G (h r).points) (fun _ o => BackShaped (fun _ => s) o) :=
      { heapAges := fun h h' ha hh => ⟨hb.heapAges h h' ha hh.1, fun r hr => by
          obtain ⟨⟨a, e⟩, _⟩ := ha r
          rw [e]
          exact hh.2 r hr⟩
        heapTransform := fun h c r e => by cases e
        ages := hb.ages
        transform := hb.transform
        step := hb.step
        setMin := hb.setMin
        hit := fun h g c o r d hH => hb.hit h g c o r d hH.1
        hitErr := fun h g c o r hH => hb.hitErr h g c o r hH.1
        merge := hb.merge
        create := fun w r hH => hb.create w r hH.1 }
    refine update_succeeds_of hL hs h0 (hw.mono (fun _ _ _ => trivial) fun _ _ _ _ h => h.1.ok) c.1 c.2 none hcall.ok
      (Or.inl rfl) hQ ⟨hcall.points, hG⟩ hback ?_ ?_ hfill (fun h => absurd hre h)
    · intro w1 hH hc ho v hv
      unfold DistGives at hv
      rw [hf] at hv
      obtain ⟨r, hr, o, hmo, -, hv⟩ := hv
      obtain ⟨x, hx⟩ := hD (w1.heap r) (o.view w1.heap) (hH.1 r hr) (hH.2 r hr)
        (estimate_hasShape (shape := fun _ => s) hL (ho o hmo).2 (ho o hmo).1)
      exact ⟨x, by rw [← hv]; exact hx⟩
    · intro w1 _ v hv
      obtain ⟨g, hg, -⟩ := hv
      rw [hre] at hg
      cases hg

end

/-- the corners 1 and 8 of an object -/
def cornersDiffer (p : Pts ℝ) : Prop := rowDistance p.mat 1 8 ≠ 0

theorem scaledEuclidean_number {p q : Pts ℝ} (hp : HasShape (9, 3) p) (hq : HasShape (9, 3) q) (hc : cornersDiffer p) :
    ∃ x, scaledEuclidean p q = some (some x) := by
  have hm := meanEuclidean_eq (hp.same hq) (by rw [hp.1]; decide)
  unfold scaledEuclidean
  rw [if_neg (by rw [hq.1]; decide), hm, Option.map_some, Option.bind_some]
  by_cases h : rowDistance q.mat 1 8 = 0
  · rw [if_pos h, if_neg]
    · exact ⟨_, rfl⟩
    · intro h0
      refine hc ?_
      have hmet := C39_mean_euclidean (n := 9) (by decide) 3
      obtain ⟨f, h1, h2⟩ := hmet
      have e := h1 p q hp.1 hp.2.1 hq.1 hq.2.1
      rw [hm, Option.some.injEq, Option.some.injEq] at e
      rw [e] at h0
      have hp' : p.n = 9 ∧ p.dim = 3 ∧ ShapeOk p := ⟨hp.1, hp.2.1, by unfold ShapeOk; rw [hp.2.2, hp.1, hp.2.1]⟩
      have hq' : q.n = 9 ∧ q.dim = 3 ∧ ShapeOk q := ⟨hq.1, hq.2.1, by unfold ShapeOk; rw [hq.2.2, hq.1, hq.2.1]⟩
      have : p = q := (h2 p q p hp' hq' hp').2.2.1.mp h0
      rw [this]
      exact h
  · rw [if_neg h]
    exact ⟨_, rfl⟩

theorem eyeDet_corners {ps : List (ℝ × ℝ × ℝ)} (h9 : ps.length = 9) (h : ps[1]? ≠ ps[8]?) : cornersDiffer (eyeDet ps).points := by
  match ps, h9 with
  | [p0, p1, p2, p3, p4, p5, p6, p7, p8], _ =>
    intro h0
    refine h ?_
    unfold rowDistance at h0
    rw [Real.sqrt_eq_zero (Finset.sum_nonneg fun k _ => sq_nonneg _),
      Finset.sum_eq_zero_iff_of_nonneg (fun k _ => sq_nonneg _)] at h0
    have a := h0 0 (Finset.mem_range.mpr (show 0 < 3 by decide))
    have b := h0 1 (Finset.mem_range.mpr (show 1 < 3 by decide))
    have c := h0 2 (Finset.mem_range.mpr (show 2 < 3 by decide))
    rw [sq_eq_zero_iff, sub_eq_zero] at a b c
    have a : p1.1 = p8.1 := a
    have b : p1.2.1 = p8.2.1 := b
    have c : p1.2.2 = p8.2.2 := c
    show some p1 = some p8
    rw [Option.some.injEq]
    exact Prod.ext a (Prod.ext b c)

/-- **C135** (partial: objects whose corners 1 and 8 are at the same place, see `C135_false_flat`) The tracker of the demo can
be made, and every video is processed to its end: no call raises, and as many frames are written as were read. -/
theorem C135_to_the_end_partial {flt : FilterOps ℝ F} {Ok : F → Prop} (hL : FilterLaws flt Ok) (str : Unit → String)
    (cdist : String → List (List ℝ) → List (List ℝ) → Option (Mat (Option (WithTop ℝ)))) (threshold : WithTop ℝ) {hits delay : Int}
    (hdelay : 0 ≤ delay ∧ delay < hits) (dr : EvalDraw ℝ Unit H) (hpal : dr.env.palette.colors ≠ []) :
    ∃ cfg, mkTracker str cdist (eyeArgs flt threshold hits delay) = some cfg ∧ ∀ alive paths g (size : Nat × Nat), 0 < size.2 →
      ∀ frames : List (EyeFrame ℝ), (∀ f ∈ frames, (f.w, f.h) = size ∧ ∀ ps ∈ f.seen.getD [], ps.length = 9 ∧ ps[1]? ≠ ps[8]?) →
      ∃ w' pics, eyeRun cfg dr alive paths g frames = some (w', pics) ∧ pics.length = frames.length := by
  suffices ends : ∀ cfg : Cfg ℝ Unit (WithTop ℝ) F Unit, cfg.flt = flt →
      (cfg.dist = .scalar fun d v => scaledEuclidean d.points (v.obj.estimate flt)) →
      cfg.reid = none → cfg.thr ≤ cfg.fill → ∀ alive paths g (size : Nat × Nat), 0 < size.2 →
      ∀ frames : List (EyeFrame ℝ), (∀ f ∈ frames, (f.w, f.h) = size ∧ ∀ ps ∈ f.seen.getD [], ps.length = 9 ∧ ps[1]? ≠ ps[8]?) →
      ∃ w' pics, eyeRun cfg dr alive paths g frames = some (w', pics) ∧ pics.length = frames.length by
    have hmk : ∃ cfg, mkTracker str cdist (eyeArgs flt threshold hits delay) = some cfg ∧ cfg.flt = flt ∧
        (cfg.dist = .scalar fun d v => scaledEuclidean d.points (v.obj.estimate flt)) ∧ cfg.reid = none ∧
        cfg.thr ≤ cfg.fill := by
      have hres : resolveDelay hits (some delay) = some delay := by
        simp only [resolveDelay]
        simp [hdelay]
      unfold mkTracker
      simp only [eyeArgs, DistArg.resolve, hres]
      refine ⟨_, rfl, rfl, rfl, rfl, ?_⟩
      show threshold ≤ threshold + 1
      cases threshold with
      | top => simp
      | coe x => exact WithTop.coe_le_coe.mpr (by linarith)
    obtain ⟨cfg, h1, h2, h3, h4, h5⟩ := hmk
    exact ⟨cfg, h1, ends cfg h2 h3 h4 h5⟩
  rintro cfg rfl hf hre hfill alive paths g size hh frames hfr
  rw [C135_pictures hL dr hpal alive paths g hh frames fun f hm => ⟨(hfr f hm).1, fun ps hps => ((hfr f hm).2 ps hps).1⟩]
  have hd : ∀ l ∈ newDets (frames.map eyeCall), ∀ d ∈ l, DetShaped (9, 3) d ∧ cornersDiffer d.points := by
    intro l hl d hd
    unfold newDets at hl
    rw [List.map_map] at hl
    obtain ⟨f, hm, rfl⟩ := List.mem_map.mp hl
    obtain ⟨ps, hps, rfl⟩ := List.mem_map.mp hd
    obtain ⟨a, b⟩ := (hfr f hm).2 ps hps
    exact ⟨eyeDet_shaped a, eyeDet_corners a b⟩
  obtain ⟨⟨w', acts⟩, ht⟩ := demoTrack_given hL () () g hd hf
    (fun d v h1 h2 h3 => scaledEuclidean_number h1 h3 h2) hre hfill
  have hlen := ((demoTrack_shape hL () () g (fun l hl d hd' => (hd l hl d hd').1)).1 w' acts ht).1
  rw [ht]
  refine ⟨_, _, rfl, ?_⟩
  rw [List.length_map] at hlen
  simp [hlen]

/-- an object without extent -/
noncomputable def flatSeen : List (ℝ × ℝ × ℝ) := List.replicate 9 (1, 1, 1)

/-- the tracker of the demo with its default arguments -/
noncomputable def flatCfg : Cfg ℝ Unit (WithTop ℝ) (OKF ℝ) Unit where
  dist := .scalar fun d v => scaledEuclidean d.points (v.obj.estimate (okfOps realOkf))
  thr := ((1 / 2 : ℝ) : WithTop ℝ)
  fill := ((1 / 2 : ℝ) : WithTop ℝ) + 1
  hitCounterMax := 40
  initDelay := 10
  pwMax := 4
  detThr := 0
  flt := okfOps realOkf
  pastLen := 4
  reid := none
  reidThr := 0
  reidFill := 0 + 1
  reidMax := none

noncomputable def flatWorld : World ℝ Unit (WithTop ℝ) (OKF ℝ) Unit :=
  ⟨detHeap () () [eyeDet flatSeen, eyeDet flatSeen], 0, 0, 0, []⟩

theorem flat_nan : scaledEuclidean (eyeDet flatSeen).points (eyeDet flatSeen).points = some none := by
  have hs : HasShape (9, 3) (eyeDet flatSeen).points := (eyeDet_shaped (by rw [flatSeen, List.length_replicate])).1
  have hm := meanEuclidean_eq (hs.same hs) (by rw [hs.1]; decide)
  unfold scaledEuclidean
  have h0 : rowDistance (eyeDet flatSeen).points.mat 1 8 = 0 := by
    unfold rowDistance
    rw [Real.sqrt_eq_zero']
    refine le_of_eq (Finset.sum_eq_zero fun k hk => ?_)
    have hk : k < 3 := Finset.mem_range.mp hk
    match k, hk with
    | 0, _ => exact (by norm_num : ((1 : ℝ) - 1) ^ 2 = 0)
    | 1, _ => exact (by norm_num : ((1 : ℝ) - 1) ^ 2 = 0)
    | 2, _ => exact (by norm_num : ((1 : ℝ) - 1) ^ 2 = 0)
  rw [if_neg (by rw [hs.1]; decide), hm, Option.map_some, Option.bind_some, if_pos h0, if_pos]
  simp [euclid]

theorem flat_raises : trackCalls flatCfg flatWorld [(some [0], 1), (some [1], 1)] = none := by
  obtain ⟨o, e1, e2, e3, e4, e5, e6, e7⟩ : ∃ o, (update flatCfg flatWorld (some [0]) 1 none).1.objs = [o] ∧ o.isInit = true ∧
      CanMatch flatCfg.reidMax o ∧ o.filter = OKF.create realOkf (eyeDet flatSeen).points ∧ o.dimPoints = 3 ∧ o.numPoints = 9 ∧
      o.absToRel = none := ⟨_, rfl, rfl, ⟨by decide, .inl rfl⟩, rfl, rfl, rfl, rfl⟩
  have hw : Reachable flatCfg (update flatCfg flatWorld (some [0]) 1 none).1 :=
    ⟨flatWorld, ⟨rfl, rfl, rfl⟩, .call _ _ _ (.refl _) trivial⟩
  have hest : ((o.trackerStep flatCfg).updateCT none).estimate (okfOps realOkf) = (eyeDet flatSeen).points := by
    unfold Obj.estimate Obj.updateCT Obj.trackerStep
    simp only [e7, Obj.positions, e5, e6]
    rw [e4]
    unfold eyeDet flatSeen
    simp only [Pts.mk.injEq, List.length_replicate, true_and]
    simp [flatCfg, okfOps, OKF.create, OKF.predict, vadd, Obj.dimZ, e5, e6, List.replicate_succ]
  have hraise : ∃ e, (update flatCfg (update flatCfg flatWorld (some [0]) 1 none).1 (some [1]) 1 none).2 = .error e := by
    rcases C05_nan_second_round (cfg := flatCfg) rfl hw (dets := [1]) (period := 1) (ct := none) (r := 1) (by simp)
      (o := o) (by rw [e1]; simp) e3 e2 rfl (fun h1 hh => by
        have hp : (h1 1).points = (eyeDet flatSeen).points := by
          obtain ⟨a, e⟩ := hh 1
          rw [e]
          rfl
        show scaledEuclidean (h1 1).points (((o.trackerStep flatCfg).updateCT none).estimate (okfOps realOkf)) = some none
        rw [hp, hest]
        exact flat_nan) with h | ⟨p, hp, hi, -⟩
    · exact h
    · rw [e1, List.mem_singleton] at hp
      rw [hp, e2] at hi
      cases hi
  obtain ⟨e, he⟩ := hraise
  have h1 : update flatCfg flatWorld (some [0]) 1 none = ((update flatCfg flatWorld (some [0]) 1 none).1, .ok []) := rfl
  rw [trackCalls]
  simp only
  rw [h1]
  simp only [trackCalls]
  cases hu : update flatCfg (update flatCfg flatWorld (some [0]) 1 none).1 (some [1]) 1 none with
  | mk w' r =>
    rw [hu] at he
    simp only at he
    rw [he]
    rfl

/-- **C135** (the negation) If the detector sees the same object without extent in two frames, the distance of the second
detection to the object of the first is `0 / 0`, and the demo raises. -/
theorem C135_false_flat (dr : EvalDraw ℝ Unit H) (alive paths : Bool) (pic : Pic) :
    ∃ cfg, mkTracker (fun _ => "None") (fun _ _ _ => none) (eyeArgs (okfOps realOkf) ((1 / 2 : ℝ) : WithTop ℝ) 40 10) = some cfg ∧
      eyeRun cfg dr alive paths 0 [⟨720, 1280, pic, some [flatSeen]⟩, ⟨720, 1280, pic, some [flatSeen]⟩] = none := by
  refine ⟨flatCfg, rfl, ?_⟩
  unfold eyeRun
  rw [mapM_some_map fun f _ => eyeDetections_eq f, Option.bind_some, eyeLoop_split]
  have h : trackCalls flatCfg (⟨detHeap () () [eyeDet flatSeen, eyeDet flatSeen], 0, 0, 0, []⟩ : World ℝ Unit (WithTop ℝ) (OKF ℝ) Unit)
    [(some [0], 1), (some [1], 1)] = none := flat_raises
  exact (congrArg (fun x => Option.bind x _) h).trans rfl

/-! ### Examples -/

/-- a cube with this center, with edges of length 2 -/
def cubeSeen {K : Type} [Field K] (x y z : K) : List (K × K × K) :=
  [(x, y, z), (x - 1, y - 1, z - 1), (x - 1, y - 1, z + 1), (x - 1, y + 1, z - 1), (x - 1, y + 1, z + 1),
    (x + 1, y - 1, z - 1), (x + 1, y - 1, z + 1), (x + 1, y + 1, z - 1), (x + 1, y + 1, z + 1)]

/-- the difference of the first coordinates of the centers -/
def axisGap (p q : Pts ℚ) : Option (Option (WithTop ℚ)) :=
  some (some ((|p.data.getD 0 0 - q.data.getD 0 0| : ℚ) : WithTop ℚ))

/-- a tracker that gives ids at once, and loses objects soon -/
def eyeToy : Cfg ℚ Unit (WithTop ℚ) (OKF ℚ) Unit :=
  { midCfg Unit Unit 1 0 with dist := ofPoints (okfOps okfDefaults) axisGap, initDelay := 0, hitCounterMax := 2, pwMax := 1 }

/-- how to draw, in one color; letters are not seen -/
def eyeDraw : EvalDraw ℚ Unit Nat := { midDraw Unit with env := { toyEnv with palette := { toyEnv.palette with colors := [[200, 200, 200]] } } }

/-- a gray frame of 100 x 200 pixels, with or without a cube -/
def eyeFrame (b : Bool) : EyeFrame ℚ := ⟨100, 200, fun _ _ => 9, if b then some [cubeSeen 0 0 (-4)] else none⟩

/-- a cube that is seen in three frames: its corner, its center with paths, and its corner if all objects are drawn. A path
fades when its object is lost. -/
example : (eyeRun eyeToy eyeDraw true true 0 ([true, true, true, false, false, false, false].map eyeFrame)).map
      (fun r => r.2.map fun p => (p (100, 50) 1, p (133, 66) 1)) =
        some [(209, 200), (209, 200), (209, 200), (209, 9), (209, 9), (207, 9), (205, 9)] ∧
    (eyeRun eyeToy eyeDraw false false 0 ([true, true, true, false, false, false, false].map eyeFrame)).map
      (fun r => r.2.map fun p => (p (100, 50) 1, p (133, 66) 1)) =
        some [(9, 200), (9, 200), (9, 200), (9, 200), (9, 200), (9, 9), (9, 9)] := by
  decide +kernel

/-- the hypotheses of `C135_pictures` -/
example : eyeDraw.env.palette.colors ≠ [] ∧ (∃ Ok : OKF ℚ → Prop, FilterLaws eyeToy.flt Ok) ∧
    ∀ b, ((eyeFrame b).w, (eyeFrame b).h) = (200, 100) ∧ ∀ ps ∈ (eyeFrame b).seen.getD [], ps.length = 9 := by
  refine ⟨List.cons_ne_nil _ _, ⟨_, okf_laws okfDefaults⟩, fun b => ⟨rfl, fun ps hps => ?_⟩⟩
  cases b with
  | false => cases hps
  | true => rw [List.mem_singleton.mp hps]; rfl

/-- the hypotheses of `C135_to_the_end_partial`: the default arguments, and cubes -/
example (dr : EvalDraw ℝ Unit H) (hpal : dr.env.palette.colors ≠ []) (pic : Pic) (alive paths : Bool) :
    ∃ cfg, mkTracker (fun _ => "None") (fun _ _ _ => none) (eyeArgs (okfOps realOkf) ((1 / 2 : ℝ) : WithTop ℝ) 40 10) = some cfg ∧
      ∃ w' pics, eyeRun cfg dr alive paths 0 (List.replicate 6 ⟨720, 1280, pic, some [cubeSeen 0 0 (-4), cubeSeen 3 0 (-6)]⟩) =
        some (w', pics) ∧ pics.length = 6 := by
  obtain ⟨cfg, h1, h2⟩ := C135_to_the_end_partial (okf_laws realOkf) (fun _ => "None") (fun _ _ _ => none) ((1 / 2 : ℝ) : WithTop ℝ)
    (hits := 40) (delay := 10) (by decide) dr hpal
  refine ⟨cfg, h1, ?_⟩
  have hc : ∀ x y z : ℝ, (cubeSeen x y z)[1]? ≠ (cubeSeen x y z)[8]? := by
    intro x y z h
    have h : x - 1 = x + 1 := congrArg (fun p => (p.getD (0, 0, 0)).1) h
    linarith
  obtain ⟨w', pics, h3, h4⟩ := h2 alive paths 0 (1280, 720) (by decide) (List.replicate 6 ⟨720, 1280, pic,
    some [cubeSeen 0 0 (-4), cubeSeen 3 0 (-6)]⟩) (fun f hf => by
      rw [List.eq_of_mem_replicate hf]
      refine ⟨rfl, fun ps hps => ?_⟩
      simp only [Option.getD_some, List.mem_cons, List.not_mem_nil, or_false] at hps
      rcases hps with rfl | rfl
      · exact ⟨rfl, hc _ _ _⟩
      · exact ⟨rfl, hc _ _ _⟩)
  exact ⟨w', pics, h3, h4.trans (by simp)⟩

end Norfair.Props
