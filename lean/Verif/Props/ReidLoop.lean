import Verif.Spec.ReidLoop
import Verif.Props.MotVideo
import Verif.Props.ReidDemo
import Verif.Props.ReidRound
import Verif.Props.Cutout
import Verif.Props.Succeeds
import Verif.Props.Film

/-! C130: the loop of the ReID demo. -/

set_option linter.unusedSectionVars false

namespace Norfair.Props

open Norfair Norfair.Spec

variable {K L D F E H : Type}

/-! ### The border -/

/-- **C130** With a border of at least one pixel the picture is in the middle, and the border has the value 254. -/
theorem C130_border {b : Nat} (hb : 1 ≤ b) (img : Photo) : ∃ out, withBorder b img = some out ∧ Bordered b img out := by
  have e0 : ((img.h : ℤ) + 2 * (b : ℤ)).toNat = img.h + 2 * b := by omega
  have e1 : ((img.w : ℤ) + 2 * (b : ℤ)).toNat = img.w + 2 * b := by omega
  have hs : ∀ n, sliceLimit (n + 2 * b) b = b ∧ sliceLimit (n + 2 * b) (-(b : ℤ)) = n + b := by
    intro n
    unfold sliceLimit
    rw [if_neg (by omega), if_pos (by omega)]
    omega
  unfold withBorder
  simp only [e0, e1, (hs img.h).1, (hs img.h).2, (hs img.w).1, (hs img.w).2]
  rw [if_neg (by omega), if_pos (by omega)]
  refine ⟨_, rfl, ⟨rfl, rfl, fun y x hy hx => ?_, fun y x h ch => ?_⟩⟩
  · simp only
    rw [if_pos (by omega)]
    have hy' : broadcast img.h (y + b - b) = y := by unfold broadcast; split <;> omega
    have hx' : broadcast img.w (x + b - b) = x := by unfold broadcast; split <;> omega
    rw [hy', hx']
  · simp only
    rw [if_neg (by omega)]

theorem slice_short {n : Nat} (hn : 0 < n) {b : ℤ} (hb : b ≤ 0) (h : 0 ≤ (n : ℤ) + 2 * b)
    (hc : n = sliceLimit ((n : ℤ) + 2 * b).toNat (-b) - sliceLimit ((n : ℤ) + 2 * b).toNat b ∨ n = 1) : b = 0 ∧ n = 1 := by
  unfold sliceLimit at hc
  rw [if_neg (by omega)] at hc
  split at hc <;> omega

/-- **C130** Without a border, or with a negative one, the loop raises as soon as it writes a picture, unless the picture is a
single pixel (and then with border 0 that pixel is lost). -/
theorem C130_border_raises (b : ℤ) (img : Photo) (hh : 0 < img.h) (hw : 0 < img.w) :
    (withBorder b img ≠ none ↔ 1 ≤ b ∨ (b = 0 ∧ img.h = 1 ∧ img.w = 1)) ∧
    (b = 0 → ∀ out, withBorder b img = some out → out.h = 1 ∧ out.w = 1 ∧ ∀ ch, out.px 0 0 ch = 254) := by
  constructor
  · by_cases hb : 1 ≤ b
    · obtain ⟨n, rfl⟩ := Int.eq_ofNat_of_zero_le (by omega : 0 ≤ b)
      obtain ⟨out, h, -⟩ := C130_border (b := n) (by omega) img
      exact ⟨fun _ => Or.inl hb, fun _ => by rw [h]; simp⟩
    · unfold withBorder
      simp only
      split
      · simp only [ne_eq, not_true_eq_false, false_iff]
        omega
      · rename_i hneg
        by_cases hc : (img.h = sliceLimit ((img.h : ℤ) + 2 * b).toNat (-b) - sliceLimit ((img.h : ℤ) + 2 * b).toNat b ∨
            img.h = 1) ∧
            (img.w = sliceLimit ((img.w : ℤ) + 2 * b).toNat (-b) - sliceLimit ((img.w : ℤ) + 2 * b).toNat b ∨ img.w = 1)
        · rw [if_pos hc]
          refine ⟨fun _ => Or.inr ?_, fun _ => by simp⟩
          obtain ⟨a1, a2⟩ := slice_short hh (by omega) (by omega) hc.1
          obtain ⟨-, a3⟩ := slice_short hw (by omega) (by omega) hc.2
          exact ⟨a1, a2, a3⟩
        · rw [if_neg hc]
          refine ⟨fun h => absurd rfl h, fun h => ?_⟩
          obtain ⟨rfl, e1, e2⟩ := h.resolve_left hb
          exact absurd ⟨Or.inr e1, Or.inr e2⟩ hc
  · rintro rfl out h
    unfold withBorder at h
    simp only at h
    split at h
    · cases h
    · split at h
      · rename_i hc
        cases h
        obtain ⟨-, a2⟩ := slice_short hh le_rfl (by omega) hc.1
        obtain ⟨-, a3⟩ := slice_short hw le_rfl (by omega) hc.2
        refine ⟨by simp [a2], by simp [a3], fun ch => ?_⟩
        simp [a2, a3, sliceLimit]
      · cases h

/-! ### The embeddings -/

section
variable [Field K] [LinearOrder K] [IsStrictOrderedRing K] [FloorRing K]

/-- a detection of this shape -/
def PhotoDet (s : Nat × Nat) (d : Det K L (Option E)) : Prop :=
  HasShape s d.points ∧ HasShape s d.absPoints ∧ ∀ x, d.scores = some x → x.length = s.1

theorem cutout_some {s : Nat × Nat} (h1 : 1 ≤ s.1) (h2 : 2 ≤ s.2) {p : Pts K} (hp : HasShape s p) (img : Photo) :
    ∃ cut, getCutout p.rows img = some cut := by
  obtain ⟨a1, a2, a3⟩ := hp
  have hne : p.rows ≠ [] := by
    simp only [Pts.rows, ne_eq, List.map_eq_nil_iff, List.range_eq_nil]
    omega
  have hlen : ∀ q ∈ p.rows, 2 ≤ q.length := by
    intro q hq
    obtain ⟨i, hi, rfl⟩ := List.mem_map.mp hq
    rw [List.mem_range] at hi
    rw [List.length_take, List.length_drop, a3]
    have : (i + 1) * p.dim ≤ p.n * p.dim := Nat.mul_le_mul_right _ hi
    have e : s.2 * s.1 = p.n * p.dim := by rw [a1, a2, Nat.mul_comm]
    rw [Nat.add_mul, Nat.one_mul] at this
    omega
  have hcx := column_eq 0 p.rows fun q hq => by have := hlen q hq; omega
  have hcy := column_eq 1 p.rows fun q hq => by have := hlen q hq; omega
  have hnx : (p.rows.map fun p => p.getD 0 0) ≠ [] := by simpa using hne
  have hny : (p.rows.map fun p => p.getD 1 0) ≠ [] := by simpa using hne
  obtain ⟨ax, ha1, -⟩ := listMax_spec hnx
  obtain ⟨ix, hi1, -⟩ := listMin_spec hnx
  obtain ⟨ay, hb1, -⟩ := listMax_spec hny
  obtain ⟨iy, hj1, -⟩ := listMin_spec hny
  unfold getCutout
  rw [hcx, hcy]
  simp only [Option.bind_eq_bind, Option.bind_some, ha1, hi1, hb1, hj1]
  exact ⟨_, rfl⟩

/-- all detections of a frame get the embedding of their pixels; nothing else changes -/
theorem embedAll_spec {s : Nat × Nat} (h1 : 1 ≤ s.1) (h2 : 2 ≤ s.2) (hist : Photo → E) (img : Photo) (dets : List Ref) :
    ∀ heap : Ref → Det K L (Option E), (∀ r ∈ dets, HasShape s (heap r).points) →
    ∃ heap', embedAll hist img heap dets = some heap' ∧ (∀ r, ∃ e, heap' r = { heap r with extra := e }) ∧
      (∀ r ∈ dets, SeenIn hist img (heap' r)) ∧ ∀ r ∉ dets, heap' r = heap r := by
  induction dets with
  | nil => exact fun heap _ => ⟨heap, rfl, fun r => ⟨_, rfl⟩, by simp, fun _ _ => rfl⟩
  | cons r rs ih =>
    intro heap hd
    obtain ⟨cut, hc⟩ := cutout_some h1 h2 (hd r List.mem_cons_self) img
    set h' := Function.update heap r { heap r with extra := if 0 < cut.h ∧ 0 < cut.w then some (hist cut) else none }
      with hh'
    have hr : h' r = { heap r with extra := if 0 < cut.h ∧ 0 < cut.w then some (hist cut) else none } := by
      rw [hh', Function.update_self]
    have hq : ∀ q, ∃ e, h' q = { heap q with extra := e } := by
      intro q
      by_cases e : q = r
      · rw [e, hr]; exact ⟨_, rfl⟩
      · rw [hh', Function.update_of_ne e]; exact ⟨_, rfl⟩
    obtain ⟨h'', i1, i2, i3, i4⟩ := ih h' (fun q hq' => by
      obtain ⟨e, he⟩ := hq q
      rw [he]
      exact hd q (List.mem_cons_of_mem _ hq'))
    refine ⟨h'', ?_, fun q => ?_, fun q hq' => ?_, fun q hq' => ?_⟩
    · rw [embedAll, embedOne, hc]
      exact i1
    · obtain ⟨e, he⟩ := i2 q
      obtain ⟨e', he'⟩ := hq q
      rw [he, he']
      exact ⟨e, rfl⟩
    · by_cases hm : q ∈ rs
      · exact i3 q hm
      · have : q = r := (List.mem_cons.mp hq').resolve_right hm
        subst this
        rw [i4 q hm, hr]
        refine ⟨cut, hc, fun h => by simp only [if_pos h], fun h => by
          simp only
          rw [if_neg (by omega)]⟩
    · rw [i4 q fun h => hq' (List.mem_cons_of_mem _ h), hh',
        Function.update_of_ne fun h : q = r => hq' (h ▸ List.mem_cons_self)]

/-! ### The loop -/

variable [LinearOrder D] [OrderTop D] [Zero D] [DecidableEq L]

theorem mod_back {skip a n m : Nat} (hs : 1 ≤ skip) (h : (a + n) % skip = m) (hn : n ≤ m) : a % skip = m - n := by
  have h1 := Nat.div_add_mod (a + n) skip
  have h2 := Nat.mod_lt (a + n) hs
  have : a = skip * ((a + n) / skip) + (m - n) := by omega
  rw [this, Nat.mul_add_mod, Nat.mod_eq_of_lt (by omega)]

/-- the detections that are drawn in frame `j` of the rest of a video -/
def shownIn (skip i : Nat) (old : List Ref) (frames : List (Photo × List Ref)) (j : Nat) : List Ref :=
  if j < (i + j) % skip then old else (frames[j - (i + j) % skip]?.map Prod.snd).getD []

theorem reidLoop_spec {cfg : Cfg K L D F (Option E)} {Ok : F → Prop} (hL : FilterLaws cfg.flt Ok) {s : Nat × Nat}
    (h1 : 1 ≤ s.1) (h2 : 2 ≤ s.2) (hd : ShapedDist cfg.flt (fun _ => s) cfg.dist) (hfill : cfg.thr ≤ cfg.fill)
    (hre : ∀ g, cfg.reid = some g → cfg.reidThr ≤ cfg.reidFill ∧ ShapedReid cfg.flt (fun _ => s) g)
    (hist : Photo → E) (dr : EvalDraw K L H) (hpal : dr.env.palette.colors ≠ []) {border skip : Nat} (hb : 1 ≤ border)
    (hs : 1 ≤ skip) {w0 : World K L D F (Option E)} (h0 : w0.Initial) {R : Ref → Prop} (frames : List (Photo × List Ref)) :
    ∀ (i : Nat) (old : List Ref) (w : World K L D F (Option E)),
    Reaches cfg (fun _ _ => True) (fun dets _ ct w => CallShaped (fun _ => s) (dets.getD []) ct w.heap) w0 w →
    (∀ r, R r → PhotoDet s (w.heap r)) → (∀ x ∈ frames, ∀ r ∈ x.2, R r) →
    ∃ w' pics fs, reidLoop cfg hist dr border skip i old w frames = some (w', pics) ∧ Trace cfg w fs w' ∧
      pics.length = frames.length ∧ fs.length = frames.length ∧
      ∀ (j : Nat) x f pic, frames[j]? = some x → fs[j]? = some f → pics[j]? = some pic →
        ReidFrame hist dr cfg.flt border skip (i + j) (shownIn skip i old frames j) x f pic := by
  induction frames with
  | nil => exact fun i old w _ _ _ => ⟨w, [], [], rfl, .nil w, rfl, rfl, by simp⟩
  | cons x fs ih =>
    intro i old w hw hheap hR
    obtain ⟨img, pred⟩ := x
    -- the call
    obtain ⟨wb, dets, period, act, hstep, htr, henv, hwb, hcall, hok, hb1, hb2, hdet⟩ :
        ∃ (wb : World K L D F (Option E)) (dets : Option (List Ref)) (period : Int) (act : List (Obj K L D F)),
        reidStep cfg hist skip i old w img pred =
          some (if i % skip = 0 then pred else old, (update cfg wb dets period none).1, act) ∧ Trace cfg w [] wb ∧
        (∀ r, ∃ e, wb.heap r = { w.heap r with extra := e }) ∧
        Reaches cfg (fun _ _ => True) (fun dets _ ct w => CallShaped (fun _ => s) (dets.getD []) ct w.heap) w0 wb ∧
        CallShaped (fun _ => s) (dets.getD []) none wb.heap ∧ (update cfg wb dets period none).2 = .ok act ∧
        (i % skip = 0 → dets = some pred ∧ period = skip ∧ ∀ r ∈ pred, SeenIn hist img (wb.heap r)) ∧
        (i % skip ≠ 0 → dets = none ∧ period = 1) ∧ True := by
      by_cases hi : i % skip = 0
      · obtain ⟨heap, e1, e2, e3, -⟩ := embedAll_spec h1 h2 hist img pred w.heap fun r hr =>
          (hheap r (hR _ List.mem_cons_self r hr)).1
        have hcall : CallShaped (fun _ => s) ((some pred : Option (List Ref)).getD []) none heap := by
          refine ⟨⟨(fun c e => by cases e), fun r hr => ?_⟩, (fun c e => by cases e), fun r hr => ?_⟩ <;>
          · obtain ⟨e, he⟩ := e2 r
            have hq := hheap r (hR _ List.mem_cons_self r hr)
            rw [he]
            first
            | exact hq.1
            | obtain ⟨-, ⟨c1, c2, c3⟩, c4⟩ := hq
              exact ⟨c1, c2, by rw [c3, c1, c2], fun x h => by rw [c4 x h, c1]⟩
        have hwe : Reaches cfg (fun _ _ => True)
            (fun dets _ ct w => CallShaped (fun _ => s) (dets.getD []) ct w.heap) w0 { w with heap := heap } :=
          .env heap w.gcount hw ⟨le_rfl, fun r hr => by
            obtain ⟨e, he⟩ := e2 r
            rw [he]
            exact hr⟩ trivial
        obtain ⟨act, hact⟩ := C67_shaped_reid hL (fun _ _ _ => rfl) hd hfill hre h0 hwe (some pred) skip none hcall
          (Or.inl rfl)
        refine ⟨{ w with heap := heap }, some pred, skip, act, ?_, .env heap w.gcount (.nil w) ⟨le_rfl, fun r hr => by
            obtain ⟨e, he⟩ := e2 r
            rw [he]
            exact hr⟩, e2, hwe, hcall, hact, fun _ => ⟨rfl, rfl, e3⟩, fun h => absurd hi h, trivial⟩
        rw [reidStep, if_pos hi, if_pos hi, e1, Option.bind_some]
        rcases hu : update cfg { w with heap := heap } (some pred) skip none with ⟨w1, out⟩
        rw [hu] at hact
        simp only at hact
        subst hact
        rfl
      · have hcall : CallShaped (fun _ => s) ((none : Option (List Ref)).getD []) none w.heap :=
          ⟨⟨(fun c e => by cases e), by simp⟩, (fun c e => by cases e), by simp⟩
        obtain ⟨act, hact⟩ := C67_shaped_reid hL (fun _ _ _ => rfl) hd hfill hre h0 hw none 1 none hcall (Or.inl rfl)
        refine ⟨w, none, 1, act, ?_, .nil w, fun r => ⟨_, rfl⟩, hw, hcall, hact, fun h => absurd h hi,
          fun _ => ⟨rfl, rfl⟩, trivial⟩
        rw [reidStep, if_neg hi, if_neg hi]
        rcases hu : update cfg w none 1 none with ⟨w1, out⟩
        rw [hu] at hact
        simp only at hact
        subst hact
        rfl
    -- the picture
    set w1 := (update cfg wb dets period none).1 with hw1
    set shown := if i % skip = 0 then pred else old with hshown
    have hupd : update cfg wb dets period none = (w1, .ok act) := Prod.ext rfl hok
    obtain ⟨c, hc⟩ := C53_does_not_raise dr.env hpal [img.h, img.w, 3] {} rfl (Or.inr (Or.inl rfl))
      (shown.map fun r => Drawable.ofDet dr.lab (w1.heap r))
    obtain ⟨c', hc'⟩ : ∃ c', drawTrackedObjects dr.env [img.h, img.w, 3]
        (some (act.map (Drawable.ofObj cfg.flt dr.idOf dr.lab))) = some (some c') := by
      unfold drawTrackedObjects
      exact C53_does_not_raise dr.env hpal _ _ rfl (Or.inl rfl) _
    obtain ⟨pic, hpic, hbord⟩ := C130_border hb ⟨img.h, img.w, fun y x => c'.render dr.ras [img.h, img.w, 3]
      (c.render dr.ras [img.h, img.w, 3] img.pic) (x, y)⟩
    have hdraw : (reidDraw dr cfg.flt img w1.heap shown act).bind (withBorder border) = some pic := by
      rw [reidDraw, hc, Option.bind_some, hc']
      exact hpic
    -- the rest
    have hI := (hwb.inv (Inv.initial h0)).1
    obtain ⟨w', pics, gs, i1, i2, i3, i4, i5⟩ := ih (i + 1) shown w1 (.call _ _ _ hwb hcall)
      (fun r hr => heap_keeps (Q := PhotoDet s) (fun _ _ h => h) (fun c e => by cases e) hI hupd r (by
        obtain ⟨e, he⟩ := henv r
        rw [he]
        exact hheap r hr))
      (fun x hx => hR x (List.mem_cons_of_mem _ hx))
    refine ⟨w', pic :: pics, ⟨dets, period, none, wb, w1, .ok act⟩ :: gs, ?_, ?_, by simp [i3], by simp [i4], ?_⟩
    · rw [reidLoop, hstep]
      simp only [hdraw, i1, Option.map_some]
    · have := Trace.call dets period none htr
      rw [List.nil_append, ← hw1, hok] at this
      exact Trace.append this i2
    · intro j y f p hy hf hp
      cases j with
      | zero =>
        simp only [List.getElem?_cons_zero, Option.some.injEq] at hy hf hp
        subst hy hf hp
        have hsh : shownIn skip i old ((img, pred) :: fs) 0 = shown := by
          unfold shownIn
          rw [hshown, Nat.add_zero]
          by_cases hi : i % skip = 0
          · rw [if_neg (by omega), if_pos hi]
            simp
          · rw [if_pos (by omega), if_neg hi]
        rw [hsh]
        exact ⟨hb1, hb2, rfl, act, c, c', rfl, hc, hc', hbord⟩
      | succ j =>
        simp only [List.getElem?_cons_succ] at hy hf hp
        have := i5 j y f p hy hf hp
        have e : i + 1 + j = i + (j + 1) := by omega
        rw [e] at this
        have hsh : shownIn skip (i + 1) shown fs j = shownIn skip i old ((img, pred) :: fs) (j + 1) := by
          unfold shownIn
          rw [e]
          generalize hm : (i + (j + 1)) % skip = m
          by_cases h3 : j + 1 ≤ m
          · have hback := mod_back hs hm h3
            rw [if_pos (by omega), hshown]
            by_cases h4 : j + 1 = m
            · rw [if_pos (by omega), if_neg (by omega)]
              simp [h4]
            · rw [if_neg (by omega), if_pos (by omega)]
          · rw [if_neg (by omega), if_neg (by omega)]
            have : j + 1 - m = (j - m) + 1 := by omega
            rw [this, List.getElem?_cons_succ]
        rw [← hsh]
        exact this

/-- **C130** The whole video of the ReID demo is processed, if the border has at least one pixel: nothing raises, and one
picture is written for each frame. In every `skip_period`-th frame the embeddings of its detections are computed from that frame
before anything is drawn, and the tracker gets these detections; in the other frames it gets none. The picture that is written
is the frame with the detections of the last processed frame and the objects that the tracker returned, and a border around it. -/
theorem C130_to_the_end {cfg : Cfg K L D F (Option E)} {Ok : F → Prop} (hL : FilterLaws cfg.flt Ok) {s : Nat × Nat}
    (h1 : 1 ≤ s.1) (h2 : 2 ≤ s.2) (hd : ShapedDist cfg.flt (fun _ => s) cfg.dist) (hfill : cfg.thr ≤ cfg.fill)
    {corr : E → E → K} {emb : K → D} (hre : ∀ g, cfg.reid = some g → g = embeddingReid corr emb ∧ cfg.reidThr ≤ cfg.reidFill)
    (hist : Photo → E) (dr : EvalDraw K L H) (hpal : dr.env.palette.colors ≠ []) {border skip : Nat} (hb : 1 ≤ border)
    (hs : 1 ≤ skip) {w0 : World K L D F (Option E)} (h0 : w0.Initial) (frames : List (Photo × List Ref))
    (hdets : ∀ x ∈ frames, ∀ r ∈ x.2, PhotoDet s (w0.heap r)) :
    ∃ w' pics fs, reidLoop cfg hist dr border skip 0 [] w0 frames = some (w', pics) ∧ Trace cfg w0 fs w' ∧
      pics.length = frames.length ∧ fs.length = frames.length ∧
      ∀ (j : Nat) x f pic, frames[j]? = some x → fs[j]? = some f → pics[j]? = some pic →
        ∃ y, frames[j - j % skip]? = some y ∧ ReidFrame hist dr cfg.flt border skip j y.2 x f pic := by
  obtain ⟨w', pics, fs, i1, i2, i3, i4, i5⟩ := reidLoop_spec hL h1 h2 hd hfill
    (fun g hg => by
      obtain ⟨rfl, hrf⟩ := hre g hg
      exact ⟨hrf, fun _ _ _ _ _ => ⟨_, rfl⟩⟩) hist dr hpal hb hs h0
    (R := fun r => ∃ x ∈ frames, r ∈ x.2) frames 0 [] w0 (.refl _)
    (fun r ⟨x, hx, hr⟩ => hdets x hx r hr) (fun x hx r hr => ⟨x, hx, hr⟩)
  refine ⟨w', pics, fs, i1, i2, i3, i4, fun j x f pic hx hf hp => ?_⟩
  have hlt := (List.getElem?_eq_some_iff.mp hx).1
  have hle : j - j % skip < frames.length := by omega
  refine ⟨_, List.getElem?_eq_getElem hle, ?_⟩
  have := i5 j x f pic hx hf hp
  unfold shownIn at this
  rw [Nat.zero_add, if_neg (by have := Nat.mod_le j skip; omega), List.getElem?_eq_getElem hle] at this
  exact this

end

/-! ### Who is recognized -/

section
variable [Field K] [LinearOrder K] [IsStrictOrderedRing K] [LinearOrder D] [OrderTop D] [Zero D] [DecidableEq L]

/-- the newest embedding that is known of an object: the one of its last detection, or else of the newest past detection that
has one -/
def KnownAs (h : Ref → Det K L (Option E)) (o : Obj K L D F) (e : E) : Prop :=
  (h o.lastDet).extra = some e ∨ ((h o.lastDet).extra = none ∧
    ∃ a r b, o.past = a ++ r :: b ∧ (h r).extra = some e ∧ ∀ q ∈ b, (h q).extra = none)

/-- **C130** (partial: not always the object that looks most alike, see `C130_false_closest`) In the ReID demo an object that was
dead is alive again only if the detection belongs to a new object of the same label, which disappears, and the histogram of one
of the detections of the new object has a correlation above 1/2 with the newest known histogram of the dead one. The object
keeps its id. This holds for any distance function. -/
theorem C130_recognized_partial {cfg : Cfg K L D F (Option E)} {corr : E → E → K} {emb : K → D}
    (hemb : ∀ x y, emb x < emb y ↔ x < y) (hre : cfg.reid = some (embeddingReid corr emb)) (hthr : cfg.reidThr = emb (1 / 2))
    {w w' : World K L D F (Option E)} (hw : Reachable cfg w) {dets : Option (List Ref)} {period : Int}
    {ct : Option (CoordTrans K)} {act : List (Obj K L D F)} (h : update cfg w dets period ct = (w', .ok act))
    {o o' : Obj K L D F} (ho : o ∈ w.objs) (hdead : o.hitCounter < 0) (ho' : o' ∈ w'.objs) (hk : o'.initId = o.initId)
    (halive : 0 ≤ o'.hitCounter) :
    o'.id = o.id ∧ o'.lastDet ∈ dets.getD [] ∧ ∃ c ∈ w.objs, c.isInit = true ∧ c.label = o.label ∧
      (∀ q ∈ w'.objs, q.initId ≠ c.initId) ∧
      ∃ e, KnownAs w.heap o e ∧ ∃ r y, (r ∈ c.past ∨ r = o'.lastDet) ∧ (w.heap r).extra = some y ∧ 1 / 2 < corr e y := by
  have hI := hw.inv
  have hI' : Inv w' := by
    have := (update_inv (cfg := cfg) hI dets period ct).1
    rw [h] at this; exact this
  obtain ⟨w0, act0, h1, h2, d1, d2, d, pairs1, pairs2, pairs, rest1, rest2, cands, olds, hu, a1, a2, -, a3, -, a4, a5, a6,
    a7, a8, a9, a10, Q⟩ := C97_third_round_any hre hw h
  have hI0 : Inv w0 := by
    have := (update_inv (cfg := { cfg with reid := none }) hI dets period ct).1
    rw [hu] at this; exact this
  have hex : ∀ r, (h2 r).extra = (w.heap r).extra := by
    intro r
    obtain ⟨a, ha⟩ := a2 r
    rw [ha]
    obtain ⟨b, hb⟩ := startHeap_fields w dets ct r
    rw [hb]
  have hkey : o'.initId ∈ w'.objs.map (·.initId) := List.mem_map_of_mem ho'
  rw [Q.keys, List.mem_filter, decide_eq_true_eq] at hkey
  obtain ⟨hk0, hnc⟩ := hkey
  obtain ⟨o0, ho0, hk0⟩ := List.mem_map.mp hk0
  -- it is one of the recognized objects
  have hpair : o'.initId ∈ pairs.filterMap (fun p => olds[p.2]?.map (·.initId)) := by
    by_contra hno
    rw [← hk0] at hno hnc
    obtain ⟨v, hv⟩ := Q.others o0 ho0 hnc hno
    have : o' = { o0 with curMin := v } := World.eq_of_mem_of_key hI'.nodup ho' hv hk0.symm
    have hc : o'.hitCounter = o0.hitCounter := by rw [this]
    rcases (update_obj_cases hI hu ho ho0 (hk.symm.trans hk0.symm)).2 with ⟨v, rfl⟩ | ⟨r, _, _, h0⟩ | ⟨hr, _⟩
    · obtain ⟨g, hg⟩ := stepped_eq { cfg with reid := none } ct o
      rw [hg] at hc
      have : o'.hitCounter = o.hitCounter - 1 := hc
      omega
    · omega
    · exact hr rfl
  obtain ⟨p, hp, hpk⟩ := List.mem_filterMap.mp hpair
  obtain ⟨c, q, past, hc, hq, hmem, -⟩ := Q.merged p hp
  rw [hq] at hpk
  simp only [Option.map_some, Option.some.injEq] at hpk
  have heq : o' = Recognized q c past := World.eq_of_mem_of_key hI'.nodup ho' hmem hpk.symm
  obtain ⟨-, oo, hoo, k1, k2, k3, k4, k5⟩ := a9 q (List.mem_of_getElem? hq)
  have : oo = o := World.eq_of_mem_of_key hI.nodup hoo ho ((k1.trans hpk).trans hk)
  subst this
  obtain ⟨-, hcl, c', hc', m1, m2, m3, m4⟩ := a7 c (List.mem_of_getElem? hc)
  have hlast : o'.lastDet = c.lastDet := by rw [heq]; rfl
  have hgone : ∀ x ∈ w'.objs, x.initId ≠ c.initId := by
    intro x hx e
    have hx := List.mem_map_of_mem (f := (·.initId)) hx
    rw [Q.keys, List.mem_filter, decide_eq_true_eq] at hx
    refine hx.2 (List.mem_filterMap.mpr ⟨p, hp, ?_⟩)
    rw [hc, Option.map_some, e]
  have hbelow := Q.greedy.below p hp
  rw [hthr] at hbelow
  refine ⟨by rw [heq, k2]; rfl, by rw [hlast]; exact hcl, c', hc', m2, ?_⟩
  rcases Q.dist p.1 p.2 c q hc hq with ⟨hlab, hdist⟩ | ⟨-, htop⟩
  · simp only at hlab
    refine ⟨by rw [m3, hlab, k3], fun x hx => m1 ▸ hgone x hx, ?_⟩
    unfold embeddingReid at hdist
    simp only [Option.some.injEq] at hdist
    rw [← hdist, hemb] at hbelow
    obtain ⟨e, he, y, hy, hlt⟩ := (C110_embedding _ _ _ _).1.mp hbelow
    refine ⟨e, ?_, ?_⟩
    · unfold KnownAs
      rw [k4, k5]
      simp only [hex] at he
      refine he.imp id fun ⟨x1, a, b, x2, x3⟩ => ⟨x1, ?_⟩
      rw [List.map_map, List.map_eq_append_iff] at x2
      obtain ⟨l1, l2, e1, e2, e3⟩ := x2
      rw [List.map_eq_cons_iff] at e3
      obtain ⟨r, l3, e3, e4, e5⟩ := e3
      refine ⟨l1, r, l3, by rw [e1, e3], ?_, fun z hz => ?_⟩
      · rw [← hex]
        exact e4
      · rw [← hex]
        exact x3 _ (e5 ▸ List.mem_map_of_mem hz)
    · rw [List.map_map] at hy
      obtain ⟨r, hr, e⟩ := List.mem_map.mp hy
      refine ⟨r, y, ?_, by rw [← hex]; exact e, by linarith⟩
      rw [hlast]
      exact m4 r hr
  · rw [htop] at hbelow
    exact absurd hbelow not_top_lt

end

/-! ### Examples, and where more is false -/

/-- detections of one point: the object at 0 with histogram 0, the object at 100 with histogram 7, and a new object at 200
that has histogram 4 first and 0 then -/
def lookHeap : Ref → Det ℚ Nat (Option ℚ) := fun r =>
  let p : Pts ℚ := ⟨1, 1, [([0, 1, 100, 101, 200, 201] : List ℚ).getD r 0]⟩
  ⟨p, none, 0, some (([0, 0, 7, 7, 4, 0] : List ℚ).getD r 0), p, none⟩

/-- a tracker like the one of the ReID demo, with points on a line and the similarity `1 - |a - b| / 10` of histograms -/
def lookCfg : Cfg ℚ Nat (WithTop ℚ) (NoFilter ℚ) (Option ℚ) where
  dist := .scalar fun d o => some (some ((|d.points.data.getD 0 0 - (o.obj.estimate noFilterOps).data.getD 0 0| : ℚ) : WithTop ℚ))
  thr := ((50 : ℚ) : WithTop ℚ)
  fill := ((51 : ℚ) : WithTop ℚ)
  hitCounterMax := 10
  initDelay := 1
  pwMax := 4
  detThr := 0
  flt := noFilterOps
  pastLen := 5
  reid := some (embeddingReid (fun a b => 1 - |a - b| / 10) fun x => (x : WithTop ℚ))
  reidThr := ((1 / 2 : ℚ) : WithTop ℚ)
  reidFill := ((3 / 2 : ℚ) : WithTop ℚ)
  reidMax := some 500

/-- several calls -/
def lookRun (w : World ℚ Nat (WithTop ℚ) (NoFilter ℚ) (Option ℚ)) : List (List Ref) →
    World ℚ Nat (WithTop ℚ) (NoFilter ℚ) (Option ℚ)
  | [] => w
  | l :: ls => lookRun (update lookCfg w (some l) 1 none).1 ls

theorem lookRun_reaches (w1 : World ℚ Nat (WithTop ℚ) (NoFilter ℚ) (Option ℚ)) (ls : List (List Ref)) :
    ∀ w, Reaches' lookCfg w1 w → Reaches' lookCfg w1 (lookRun w ls) := by
  induction ls with
  | nil => exact fun _ h => h
  | cons l ls ih => exact fun w h => ih _ (Reaches.call _ _ _ h trivial)

/-- the states of the example -/
def lookWorld (ls : List (List Ref)) : World ℚ Nat (WithTop ℚ) (NoFilter ℚ) (Option ℚ) :=
  lookRun ⟨lookHeap, 0, 0, 0, []⟩ ls

theorem lookWorld_reachable (ls : List (List Ref)) : Reachable lookCfg (lookWorld ls) :=
  ⟨_, ⟨rfl, rfl, rfl⟩, lookRun_reaches _ ls _ (.refl _)⟩

/-- whether a call returned -/
def lookOk (r : World ℚ Nat (WithTop ℚ) (NoFilter ℚ) (Option ℚ) × Except Err (List (Obj ℚ Nat (WithTop ℚ) (NoFilter ℚ)))) :
    Bool :=
  match r.2 with
  | .ok _ => true
  | .error _ => false

theorem lookOk_act {r : World ℚ Nat (WithTop ℚ) (NoFilter ℚ) (Option ℚ) × Except Err (List (Obj ℚ Nat (WithTop ℚ) (NoFilter ℚ)))}
    (h : lookOk r = true) : ∃ act, r = (r.1, .ok act) := by
  unfold lookOk at h
  split at h
  · rename_i l hl
    exact ⟨l, Prod.ext rfl hl⟩
  · cases h

/-- **C130** (the negation, for the object that looks most alike) Two objects are lost, the first one has histogram 0 and the
second one 7. A new object is seen twice, last with histogram 0, exactly that of the first object. But it becomes the second
object: its older detection has histogram 4, which is similar enough to both and closer to 7. -/
theorem C130_false_closest : ∃ w w' act, Reachable lookCfg w ∧ update lookCfg w (some [5]) 1 none = (w', .ok act) ∧
    w.objs.map (fun o => (o.id, (w.heap o.lastDet).extra)) = [(some 1, some 0), (some 2, some 7), (none, some 4)] ∧
    (w.heap 5).extra = some 0 ∧ w'.objs.map (fun o => (o.id, o.lastDet)) = [(some 1, 1), (some 2, 5)] := by
  obtain ⟨act, ha⟩ := lookOk_act (r := update lookCfg (lookWorld [[0, 2], [1, 3], [4]]) (some [5]) 1 none) (by decide +kernel)
  exact ⟨_, _, act, lookWorld_reachable _, ha, by decide +kernel, by decide +kernel, by decide +kernel⟩

/-- the hypotheses of `C130_recognized_partial`: object 1 is dead after three calls without detections, and it is recognized
again in the detections 4 and 5 -/
example : (∀ x y : ℚ, (x : WithTop ℚ) < (y : WithTop ℚ) ↔ x < y) ∧
    (lookWorld [[0], [1], [], [], [], [4]]).objs.map (fun o => (o.initId, o.id, decide (o.hitCounter < 0))) =
      [(1, some 1, true), (2, none, false)] ∧
    lookOk (update lookCfg (lookWorld [[0], [1], [], [], [], [4]]) (some [5]) 1 none) = true ∧
    (update lookCfg (lookWorld [[0], [1], [], [], [], [4]]) (some [5]) 1 none).1.objs.map
      (fun o => (o.initId, o.id, o.lastDet, decide (0 ≤ o.hitCounter))) = [(1, some 1, 5, true)] :=
  ⟨fun _ _ => WithTop.coe_lt_coe, by decide +kernel, by decide +kernel, by decide +kernel⟩

/-- **C130** (the negation, without a border) With `border_size=0`, or a negative one, the first frame raises, unless it is a
single pixel. -/
theorem C130_false_border [Field K] [LinearOrder K] [FloorRing K] [LinearOrder D] [OrderTop D] [Zero D] [DecidableEq L]
    (cfg : Cfg K L D F (Option E)) (hist : Photo → E) (dr : EvalDraw K L H) {border : ℤ} (hb : border ≤ 0) (skip i : Nat)
    (old : List Ref) (w : World K L D F (Option E)) (img : Photo) (hh : 0 < img.h) (hw : 0 < img.w)
    (hs : ¬ (img.h = 1 ∧ img.w = 1)) (pred : List Ref) (fs : List (Photo × List Ref)) :
    reidLoop cfg hist dr border skip i old w ((img, pred) :: fs) = none := by
  rw [reidLoop]
  rcases reidStep cfg hist skip i old w img pred with _ | ⟨dets, w1, act⟩
  · rfl
  · have : (reidDraw dr cfg.flt img w1.heap dets act).bind (withBorder border) = none := by
      rcases hd : reidDraw dr cfg.flt img w1.heap dets act with _ | out
      · rfl
      · have hsize : out.h = img.h ∧ out.w = img.w := by
          unfold reidDraw at hd
          obtain ⟨c, -, hd⟩ := Option.bind_eq_some_iff.mp hd
          obtain ⟨c', -, rfl⟩ := Option.map_eq_some_iff.mp hd
          exact ⟨rfl, rfl⟩
        by_contra h
        have := (C130_border_raises border out (by omega) (by omega)).1.mp h
        omega
    simp only [this]

/-- **C130** The tracker of the demo, with or without ReID: it can be made, and if scipy's `cdist` gives a number for each pair of
arrays, every video is processed to its end. -/
theorem C130_demo [DecidableEq L] {flt : FilterOps ℝ F} {Ok : F → Prop} (hL : FilterLaws flt Ok) (str : L → String)
    {cdist : String → List (List ℝ) → List (List ℝ) → Option (Mat (Option (WithTop ℝ)))}
    (hc : ∀ n cs os, cs ≠ [] → os ≠ [] → (∀ c ∈ cs, c.length = n) → (∀ b ∈ os, b.length = n) →
      ∃ M, cdist "euclidean" cs os = some M ∧ ∀ i < cs.length, ∀ j < os.length, ∃ x, M.val i j = some x)
    (corr : E → E → ℝ) (disable : Bool) (hist : Photo → E) (dr : EvalDraw ℝ L H) (hpal : dr.env.palette.colors ≠ [])
    {border skip : Nat} (hb : 1 ≤ border) (hs : 1 ≤ skip) :
    ∃ cfg, mkTracker str cdist (reidArgs flt corr disable) = some cfg ∧
      (cfg.reid = if disable then none else some (embeddingReid corr fun x => (x : WithTop ℝ))) ∧
      (disable = false → cfg.reidThr = ((1 / 2 : ℝ) : WithTop ℝ)) ∧
      ∀ (heap : Ref → Det ℝ L (Option E)) (g : Nat) (frames : List (Photo × List Ref)),
      (∀ x ∈ frames, ∀ r ∈ x.2, PhotoDet (4, 2) (heap r)) →
      ∃ w' pics, reidLoop cfg hist dr border skip 0 [] ⟨heap, g, 0, 0, []⟩ frames = some (w', pics) ∧
        pics.length = frames.length := by
  refine ⟨_, rfl, rfl, fun h => by subst h; rfl, fun heap g frames hd => ?_⟩
  have ends : ∀ cfg : Cfg ℝ L (WithTop ℝ) F (Option E), cfg.flt = flt → ShapedDist flt (fun _ => (4, 2)) cfg.dist →
      cfg.thr ≤ cfg.fill → (∀ g, cfg.reid = some g → g = embeddingReid corr (fun x => (x : WithTop ℝ)) ∧
        cfg.reidThr ≤ cfg.reidFill) →
      ∃ w' pics, reidLoop cfg hist dr border skip 0 [] ⟨heap, g, 0, 0, []⟩ frames = some (w', pics) ∧
        pics.length = frames.length := by
    rintro cfg rfl e1 e2 e3
    obtain ⟨w', pics, fs, h1, -, h2, -⟩ := C130_to_the_end hL (s := (4, 2)) (by decide) (by decide) e1 e2 e3 hist dr hpal hb hs
      (w0 := ⟨heap, g, 0, 0, []⟩) ⟨rfl, rfl, rfl⟩ frames hd
    exact ⟨w', pics, h1, h2⟩
  refine ends _ rfl (C67_scipy flt (fun _ => (4, 2)) str (fun _ _ _ => rfl) hc)
    (show ((50 : ℝ) : WithTop ℝ) ≤ ((50 : ℝ) : WithTop ℝ) + 1 from WithTop.coe_le_coe.mpr (by norm_num))
    (fun g hg => ?_)
  cases disable with
  | true => cases hg
  | false =>
    cases hg
    exact ⟨rfl, show ((1 / 2 : ℝ) : WithTop ℝ) ≤ ((1 / 2 : ℝ) : WithTop ℝ) + 1 from WithTop.coe_le_coe.mpr (by norm_num)⟩

/-- boxes with four corners for a video of three frames -/
def photoHeap : Ref → Det ℚ Nat (Option ℚ) := fun r =>
  let p : Pts ℚ := ⟨4, 2, [r, 0, r, 2, r + 2, 0, r + 2, 2]⟩
  ⟨p, none, 0, none, p, none⟩

/-- a frame of 4 x 5 pixels with the value 7 -/
def photo : Photo := ⟨4, 5, fun _ _ _ => 7⟩

/-- the value of a pixel as a histogram -/
def photoHist (img : Photo) : ℚ := img.px 0 0 0

def photoDraw : EvalDraw ℚ Nat Nat := ⟨toyEnv, toyRaster, id, some⟩

/-- the hypotheses of `C130_to_the_end`, with every second frame skipped -/
example : ∃ w' pics fs, reidLoop lookCfg photoHist photoDraw (1 : Nat) 2 0 [] ⟨photoHeap, 0, 0, 0, []⟩
      [(photo, [0]), (photo, [1]), (photo, [2])] = some (w', pics) ∧ Trace lookCfg ⟨photoHeap, 0, 0, 0, []⟩ fs w' ∧
      pics.length = 3 ∧ fs.length = 3 := by
  obtain ⟨w', pics, fs, h1, h2, h3, h4, -⟩ := C130_to_the_end (cfg := lookCfg) (Ok := NoFilter.Ok) (s := (4, 2))
    noFilter_laws (by decide) (by decide) (fun _ _ _ _ _ => ⟨_, rfl⟩) (by decide +kernel)
    (fun g hg => by cases hg; exact ⟨rfl, by decide +kernel⟩) photoHist photoDraw (by decide) (le_refl 1)
    (by decide : 1 ≤ 2) (w0 := ⟨photoHeap, 0, 0, 0, []⟩) ⟨rfl, rfl, rfl⟩ [(photo, [0]), (photo, [1]), (photo, [2])]
    (fun _ _ r _ => ⟨⟨rfl, rfl, rfl⟩, ⟨rfl, rfl, rfl⟩, fun x h => by cases h⟩)
  exact ⟨w', pics, fs, h1, h2, h3, h4⟩

/-- the same video: the embeddings of the detections of the two processed frames are known in the end -/
example : (reidLoop lookCfg photoHist photoDraw (1 : Nat) 2 0 [] ⟨photoHeap, 0, 0, 0, []⟩
      [(photo, [0]), (photo, [1]), (photo, [2])]).map
      (fun r => ([0, 1, 2].map fun i => (r.1.heap i).extra, r.2.map fun p => (p.h, p.w, p.px 0 0 0))) =
    some ([some 7, none, some 7], [(6, 7, 254), (6, 7, 254), (6, 7, 254)]) := by decide +kernel

/-- the hypotheses of `C130_border_raises` and of `C130_false_border` -/
example : 0 < photo.h ∧ 0 < photo.w ∧ ¬ (photo.h = 1 ∧ photo.w = 1) ∧ (withBorder 0 photo).isNone = true ∧
    (withBorder (-1) photo).isNone = true := by decide +kernel

end Norfair.Props
