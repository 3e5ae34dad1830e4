import Verif.Lemmas.Unseen
import Verif.Props.Filters
import Verif.Props.Parametric
import Verif.Props.CameraMotion
import Verif.Props.TrackerPoints
import Verif.Props.Projection

/-! C112: what is written in the points of a detection that are below the detection threshold does not matter. -/

namespace Norfair.Props

open Norfair.Spec Norfair.Unseen

set_option linter.unusedSectionVars false

variable {K L D F X : Type}

section
variable [LinearOrder K] [Zero K] [LinearOrder D] [OrderTop D] [Zero D] [DecidableEq L]

/-- Two programs that make the same calls, with detections that differ at most in points that are not over the
detection threshold; between the calls they may make new detections and write to old ones, with such differences,
and use other trackers. Every object of the first program has had each of its points over the threshold. -/
inductive Blurred (cfg : Cfg K L D F X) (dim : Nat) : World K L D F X → World K L D F X → Prop
  | start {w : World K L D F X} {h' : Ref → Det K L X} : w.objs = [] →
      (∀ r, SeenAlike cfg.detThr (w.heap r) (h' r)) → Blurred cfg dim w { w with heap := h' }
  | call {w v : World K L D F X} (dets : Option (List Ref)) (period : Int) (ct : Option (CoordTrans K)) :
      Blurred cfg dim w v → (∀ r ∈ dets.getD [], Proper dim (w.heap r)) →
      (∀ c, ct = some c → Pointwise dim c.relToAbs) → AllSeen (update cfg w dets period ct).1.objs →
      Blurred cfg dim (update cfg w dets period ct).1 (update cfg v dets period ct).1
  | between {w v : World K L D F X} (g : Nat) {h h' : Ref → Det K L X} : Blurred cfg dim w v →
      (∀ r, SeenAlike cfg.detThr (h r) (h' r)) →
      Blurred cfg dim { w with heap := h, gcount := g } { v with heap := h', gcount := g }

theorem blurred_al {cfg : Cfg K L D F X} {dim : Nat} {Ok : F → Prop} (hL : FilterLaws cfg.flt Ok)
    (hB : BlindFilter cfg.flt Ok) (hc : BlindDists dim cfg) {w v : World K L D F X} (h : Blurred cfg dim w v) :
    Al cfg.detThr dim Ok (fun r => Proper dim (w.heap r)) w v := by
  induction h with
  | start he hh => exact ⟨by rw [he]; simp, _, fun r => ⟨hh r, id⟩, rfl⟩
  | call dets period ct _ hd hct hall ih =>
    obtain ⟨hg, h', hh, e⟩ := (update_alike hL hB hc ih hd period hct hall).1
    exact ⟨hg, h', fun r => ⟨(hh r).1, id⟩, e⟩
  | between g _ hh ih =>
    obtain ⟨hg, h', _, rfl⟩ := ih
    exact ⟨hg, _, fun r => ⟨hh r, id⟩, rfl⟩

/-- **C112** (partial: every object must have had all of its points over the threshold since it was created; without
that the claim is false, see `C112_leaks`) If the distances do not look at points below the detection threshold and
the filter does not look at masked measurements, then two programs whose detections differ in such points only have
the same objects in every state (same estimates, ids, counters, filters), the same counters, and the next call returns
the same or raises the same. -/
theorem C112_unseen_points_partial {cfg : Cfg K L D F X} {dim : Nat} {Ok : F → Prop} (hL : FilterLaws cfg.flt Ok)
    (hB : BlindFilter cfg.flt Ok) (hc : BlindDists dim cfg) {w v : World K L D F X} (h : Blurred cfg dim w v) :
    v.objs = w.objs ∧ v.count = w.count ∧ v.initCount = w.initCount ∧ v.gcount = w.gcount ∧
    (∀ r, SeenAlike cfg.detThr (w.heap r) (v.heap r)) ∧
    ∀ (dets : Option (List Ref)) (period : Int) (ct : Option (CoordTrans K)),
      (∀ r ∈ dets.getD [], Proper dim (w.heap r)) → (∀ c, ct = some c → Pointwise dim c.relToAbs) →
      AllSeen (update cfg w dets period ct).1.objs →
      (update cfg v dets period ct).2 = (update cfg w dets period ct).2 ∧
      (update cfg v dets period ct).1.objs = (update cfg w dets period ct).1.objs := by
  have ha := blurred_al hL hB hc h
  refine ⟨?_, ?_, ?_, ?_, ?_, ?_⟩
  iterate 4
    obtain ⟨_, h', _, rfl⟩ := ha
    rfl
  · obtain ⟨_, h', hh, rfl⟩ := ha
    exact fun r => (hh r).1
  · intro dets period ct hd hct hall
    obtain ⟨⟨_, h', _, e⟩, e2⟩ := update_alike hL hB hc ha hd period hct hall
    exact ⟨e2, by rw [e]⟩

end

/-! ### Filters, transformations and distances that do not look -/

/-- **C112** None of the three filters looks at masked measurements. -/
theorem C112_filters :
    (∀ {K : Type} [Field K] (pr : OKFParams K), BlindFilter (okfOps pr) OKF.Ok) ∧
    (∀ {K : Type} [Ring K], BlindFilter (noFilterOps (K := K)) NoFilter.Ok) ∧
    ∀ {K : Type} [Field K] [LinearOrder K] [IsStrictOrderedRing K] (pr : FPParams K),
      BlindFilter (filterPyOps pr) (fun f => f.2.Good) :=
  ⟨fun pr _ _ _ _ h hz hz' hm ha => C33_okf_values pr h hz hz' hm ha,
    fun _ _ _ _ h hz hz' hm ha => C33_noFilter_values h hz hz' hm ha,
    fun _ _ _ _ _ h hz hz' hm ha => C33_filterPy_values h hz hz' hm ha⟩

/-- **C112** A translation acts on each point. -/
theorem C112_translation [Ring K] (v : List K) (dim : Nat) :
    Pointwise dim (translation v).absToRel ∧ Pointwise dim (translation v).relToAbs := by
  refine ⟨⟨fun p _ _ => ⟨rfl, rfl, by simp [translation]⟩, ?_⟩, ⟨fun p _ _ => ⟨rfl, rfl, by simp [translation]⟩, ?_⟩⟩ <;>
  · intro p q i _ _ _ hd _ h j hj
    simp only [translation, List.getElem?_mapIdx, hd, h j hj]

theorem unpairs_get (l : List (K × K)) : ∀ i : Nat,
    (unpairs l)[i * 2]? = (l[i]?).map Prod.fst ∧ (unpairs l)[i * 2 + 1]? = (l[i]?).map Prod.snd := by
  induction l with
  | nil => intro i; simp [unpairs]
  | cons a l ih =>
    intro i
    obtain ⟨x, y⟩ := a
    cases i with
    | zero => simp [unpairs]
    | succ i =>
      rw [show (i + 1) * 2 = i * 2 + 1 + 1 by ring]
      simpa [unpairs] using ih i

/-- **C112** A homography acts on each point of the plane. -/
theorem C112_homography [Field K] [DecidableEq K] {M : Matrix (Fin 3) (Fin 3) K} {t : CoordTrans K}
    (h : homography M = some t) : Pointwise 2 t.absToRel ∧ Pointwise 2 t.relToAbs := by
  have key : ∀ f : K × K → K × K, Pointwise 2 fun p : Pts K => { p with data := unpairs ((pairs p.data).map f) } := by
    intro f
    refine ⟨fun p _ hl => ⟨rfl, rfl, ?_⟩, ?_⟩
    · simp only [unpairs_length, List.length_map, pairs_length]
      omega
    · intro p q i h2 hl _ _ hlen h j hj
      have g0 := h 0 (by omega)
      have g1 := h 1 (by omega)
      rw [h2] at g0 g1 hj ⊢
      have e : (pairs q.data)[i]? = (pairs p.data)[i]? := by
        by_cases hi : i * 2 + 1 < p.data.length
        · have a0 : p.data[2 * i]? = some (p.data[i * 2]'(by omega)) := by
            rw [Nat.mul_comm]; exact List.getElem?_eq_getElem (by omega)
          have a1 : p.data[2 * i + 1]? = some (p.data[i * 2 + 1]'hi) := by
            rw [Nat.mul_comm]; exact List.getElem?_eq_getElem hi
          rw [Nat.add_zero, Nat.mul_comm] at g0
          rw [Nat.mul_comm] at g1
          rw [pairs_get p.data i _ _ a0 a1, pairs_get q.data i _ _ (g0.trans a0) (g1.trans a1)]
        · rw [List.getElem?_eq_none (by rw [pairs_length]; omega),
            List.getElem?_eq_none (by rw [pairs_length]; omega)]
      have u := unpairs_get ((pairs q.data).map f) i
      have v := unpairs_get ((pairs p.data).map f) i
      simp only [List.getElem?_map, e] at u v
      match j, hj with
      | 0, _ => exact u.1.trans v.1.symm
      | 1, _ => exact u.2.trans v.2.symm
  unfold homography at h
  split at h
  · cases h
  · cases h
    exact ⟨key _, key _⟩

theorem bidx_bidx {a b n : Nat} (h : bdim a b = some n) (i : Nat) : bidx a (bidx n i) = bidx a i := by
  unfold bdim at h
  unfold bidx
  split at h
  · cases h; split <;> simp_all
  · split at h
    · simp_all
    · split at h
      · cases h; split <;> simp_all
      · cases h

theorem keypointsVoting_agree {kthr dthr : ℝ} {p q : Pts ℝ} {P : Nat → Prop} (h : AgreePts P p q) {s : List ℝ}
    (hs : s.length = p.n) (hP : ∀ i x, s[i]? = some x → dthr < x → P i) (est : Pts ℝ) (t : Option (List ℝ)) :
    keypointsVoting kthr dthr q (some s) est t = keypointsVoting kthr dthr p (some s) est t := by
  unfold keypointsVoting Mat.sub
  simp only [Pts.mat, h.n, h.dim]
  rcases hn : bdim p.n est.n with _ | n
  · rfl
  rcases hm : bdim p.dim est.dim with _ | m
  · rfl
  cases t with
  | none => rfl
  | some t =>
    simp only
    congr 1
    unfold countMatches
    rcases hk : bdim n (s.map fun v => decide (dthr < v)).length with _ | k
    · rfl
    simp only [Option.bind_some]
    rcases hl : bdim k (t.map fun v => decide (dthr < v)).length with _ | l
    · rfl
    simp only [Option.map_some, Option.bind_eq_bind, Option.bind_some, Option.pure_def, Option.some.injEq, Nat.cast_inj]
    refine List.countP_congr fun i _ => ?_
    by_cases hb : ((s.map fun v => decide (dthr < v))[bidx (s.map fun v => decide (dthr < v)).length (bidx k i)]?).getD
        false = true
    · have hPi : P (bidx p.n (bidx n (bidx k i))) := by
        rw [bidx_bidx hn]
        rw [List.length_map, hs, List.getElem?_map] at hb
        rcases hx : s[bidx p.n (bidx k i)]? with _ | x
        · rw [hx] at hb
          simp at hb
        · rw [hx] at hb
          exact hP _ x hx (by simpa using hb)
      have e : ∀ a : Nat, P (bidx p.n a) →
          Mat.rowNorm ⟨n, m, fun i j => (q.data[bidx p.n i * p.dim + bidx p.dim j]?).getD 0 -
            (est.data[bidx est.n i * est.dim + bidx est.dim j]?).getD 0⟩ a =
          Mat.rowNorm ⟨n, m, fun i j => (p.data[bidx p.n i * p.dim + bidx p.dim j]?).getD 0 -
            (est.data[bidx est.n i * est.dim + bidx est.dim j]?).getD 0⟩ a := by
        intro a ha
        unfold Mat.rowNorm
        congr 1
        refine Finset.sum_congr rfl fun j hj => ?_
        simp only [h.at' _ ha _ (bidx_lt hm (Finset.mem_range.mp hj)).1]
      rw [e _ hPi]
    · simp only [Bool.not_eq_true] at hb
      simp only [hb, Bool.and_false, Bool.false_and]

/-- **C112** The distance of `create_keypoints_voting_distance` does not look at points below the detection threshold
of the tracker, if its own threshold is not lower. -/
theorem C112_keypoints_voting (dim : Nat) {kthr dthr : ℝ} {cfg : Cfg ℝ L (WithTop ℝ) F X} (hthr : cfg.detThr ≤ dthr)
    (hd : cfg.dist = .scalar fun d v => (keypointsVoting kthr dthr d.points d.scores (v.obj.estimate cfg.flt)
      v.last.scores).map (·.map (fun x : ℝ => (x : WithTop ℝ)))) (hr : cfg.reid = none) : BlindDists dim cfg := by
  refine ⟨⟨_, hd, ?_⟩, fun f hf => by rw [hr] at hf; cases hf⟩
  intro d e v u hp ha hv
  simp only [hv.obj, hv.last.scores, ha.scores]
  congr 1
  rcases hs : d.scores with _ | s
  · unfold keypointsVoting
    split <;> split <;> first | rfl | simp_all
  · exact keypointsVoting_agree ha.points (hp.scores s hs)
      (fun i x hx hlt => fun s' hs' => by
        rw [hs] at hs'
        cases hs'
        exact ⟨x, hx, lt_of_le_of_lt hthr hlt⟩) _ _

/-! ### Examples -/

/-- the number of points of a detection that are over the threshold 0 and near to those of an object -/
def nearPoints (d : Det ℚ Nat Unit) (est : Pts ℚ) : Nat :=
  (List.range 2).countP fun i => decide (0 < (d.scores.getD []).getD i 0) &&
    decide (|d.points.data.getD (i * 2) 0 - est.data.getD (i * 2) 0| +
      |d.points.data.getD (i * 2 + 1) 0 - est.data.getD (i * 2 + 1) 0| < 5)

/-- a tracker of two points that matches detections to objects with at least one near point -/
def nearCfg : Cfg ℚ Nat (WithTop Nat) (OKF ℚ) Unit :=
  { okfCfg with
    dist := .scalar fun d v => some (some ((2 - nearPoints d (v.obj.estimate okfCfg.flt) : Nat) : WithTop Nat))
    thr := 2 }

theorem nearCfg_blind : BlindDists 2 nearCfg := by
  refine ⟨⟨_, rfl, ?_⟩, fun f hf => by cases hf⟩
  intro d e v u hp ha hv
  simp only [hv.obj]
  have h : nearPoints e (v.obj.estimate okfCfg.flt) = nearPoints d (v.obj.estimate okfCfg.flt) := by
    unfold nearPoints
    rw [ha.scores]
    refine List.countP_congr fun i _ => ?_
    by_cases hb : 0 < (d.scores.getD []).getD i 0
    · have hs : Seen nearCfg.detThr d i := by
        intro s hs
        rw [hs, Option.getD_some, List.getD_eq_getElem?_getD] at hb
        rcases hx : s[i]? with _ | x
        · rw [hx] at hb
          exact absurd hb (by simp)
        · rw [hx] at hb
          exact ⟨x, rfl, hb⟩
      have a := ha.points.at' i hs
      rw [hp.pdim] at a
      have a0 := a 0 (by omega)
      have a1 := a 1 (by omega)
      simp only [Nat.add_zero] at a0
      simp only [List.getD_eq_getElem?_getD, a0, a1]
    · simp only [hb, decide_false, Bool.false_and]
  rw [h]

/-- detections of two points; point 1 is not found in detection 1, and there is something there instead -/
def heapN (x y : ℚ) : Ref → Det ℚ Nat Unit
  | 0 => ⟨⟨2, 2, [2, 3, 8, 8]⟩, some [1, 1], 0, (), ⟨2, 2, [2, 3, 8, 8]⟩, none⟩
  | 1 => ⟨⟨2, 2, [3, 3, x, y]⟩, some [1, 0], 0, (), ⟨2, 2, [3, 3, x, y]⟩, none⟩
  | _ => ⟨⟨2, 2, [4, 3, 9, 8]⟩, some [1, 1], 0, (), ⟨2, 2, [4, 3, 9, 8]⟩, none⟩

theorem heapN_alike (x y x' y' : ℚ) (r : Ref) : SeenAlike (0 : ℚ) (heapN x y r) (heapN x' y' r) := by
  match r with
  | 0 => exact ⟨rfl, rfl, rfl, rfl, ⟨rfl, rfl, rfl, fun _ _ _ _ => rfl⟩, ⟨rfl, rfl, rfl, fun _ _ _ _ => rfl⟩⟩
  | 1 =>
    have key : AgreePts (Seen (0 : ℚ) (heapN x y 1)) (⟨2, 2, [3, 3, x, y]⟩ : Pts ℚ) ⟨2, 2, [3, 3, x', y']⟩ := by
      refine ⟨rfl, rfl, rfl, ?_⟩
      intro i hi j hj
      obtain ⟨s, hs, hlt⟩ := hi [1, 0] rfl
      change j < 2 at hj
      match i, j, hj with
      | 0, 0, _ => rfl
      | 0, 1, _ => rfl
      | 1, _, _ =>
        cases hs
        exact absurd hlt (lt_irrefl _)
      | i + 2, _, _ => simp at hs
    exact ⟨rfl, rfl, rfl, rfl, key, key⟩
  | r + 2 => exact ⟨rfl, rfl, rfl, rfl, ⟨rfl, rfl, rfl, fun _ _ _ _ => rfl⟩, ⟨rfl, rfl, rfl, fun _ _ _ _ => rfl⟩⟩

theorem heapN_proper (x y : ℚ) (r : Ref) : Proper 2 (heapN x y r) := by
  match r with
  | 0 => exact ⟨fun s hs => by cases hs; rfl, rfl, rfl, rfl, rfl, rfl⟩
  | 1 => exact ⟨fun s hs => by cases hs; rfl, rfl, rfl, rfl, rfl, rfl⟩
  | r + 2 => exact ⟨fun s hs => by cases hs; rfl, rfl, rfl, rfl, rfl, rfl⟩

/-- the state after updates with the detections 0, 1 and so on -/
def nearRun (cfg : Cfg ℚ Nat (WithTop Nat) (OKF ℚ) Unit) (h : Ref → Det ℚ Nat Unit) :
    Nat → World ℚ Nat (WithTop Nat) (OKF ℚ) Unit
  | 0 => ⟨h, 0, 0, 0, []⟩
  | n + 1 => (update cfg (nearRun cfg h n) (some [n]) 1 none).1

/-- C112: two programs, the second with (77, -5) where the first has (0, 0) for the point that was not found; the
object is matched with all three detections and its estimate moves -/
example : FilterLaws nearCfg.flt OKF.Ok ∧ BlindFilter nearCfg.flt OKF.Ok ∧ BlindDists 2 nearCfg ∧
    Blurred nearCfg 2 (nearRun nearCfg (heapN 0 0) 2) (nearRun nearCfg (heapN 77 (-5)) 2) ∧
    (nearRun nearCfg (heapN 0 0) 2).objs.map (fun o => (o.lastDet, o.once)) = [(1, [true, true])] ∧
    AllSeen (nearRun nearCfg (heapN 0 0) 3).objs ∧
    (nearRun nearCfg (heapN 0 0) 3).objs.map (fun o => (o.lastDet, decide (2 < (o.positions okfCfg.flt).data.getD 0 0)))
      = [(2, true)] := by
  refine ⟨okf_laws _, C112_filters.1 _, nearCfg_blind, ?_, by decide +kernel, ?_, by decide +kernel⟩
  · have h0 : Blurred nearCfg 2 (nearRun nearCfg (heapN 0 0) 0) (nearRun nearCfg (heapN 77 (-5)) 0) :=
      .start (w := nearRun nearCfg (heapN 0 0) 0) rfl (heapN_alike 0 0 77 (-5))
    have h1 : Blurred nearCfg 2 (nearRun nearCfg (heapN 0 0) 1) (nearRun nearCfg (heapN 77 (-5)) 1) := by
      refine .call (some [0]) 1 none h0 ?_ (fun c hc => by cases hc) (by unfold AllSeen; decide +kernel)
      intro r hr
      simp only [Option.getD_some, List.mem_singleton] at hr
      subst hr
      exact heapN_proper 0 0 0
    refine .call (some [1]) 1 none h1 ?_ (fun c hc => by cases hc) (by unfold AllSeen; decide +kernel)
    intro r hr
    simp only [Option.getD_some, List.mem_singleton] at hr
    subst hr
    have e : (nearRun nearCfg (heapN 0 0) 1).heap 1 = heapN 0 0 1 := by rfl
    rw [e]
    exact heapN_proper 0 0 1
  · unfold AllSeen
    decide +kernel

/-- the detections of `heapQ` with (100, 100) instead of (0, 0) where point 1 is not found -/
def heapQ' : Ref → Det ℚ Nat Unit
  | 0 => ⟨⟨2, 2, [2, 3, 100, 100]⟩, some [1, 0], 0, (), ⟨2, 2, [2, 3, 100, 100]⟩, none⟩
  | r => heapQ r

/-- **C112** (the negation of the whole claim) The detections of two programs differ in one point only, which is below
the threshold; the tracker does not look at it otherwise. The point is found at (40, 40) in the next frame, and then
both programs see the same; but the first coordinate of the estimate of that point is different, because the
first-detection assignment of `hit` takes the mask in the wrong order (see C29). -/
theorem C112_leaks :
    (∀ r, SeenAlike okfCfg.detThr (heapQ r) (heapQ' r)) ∧ (∀ r, Proper 2 (heapQ r)) ∧ BlindDists 2 okfCfg ∧
    BlindFilter okfCfg.flt OKF.Ok ∧ Seen okfCfg.detThr (heapQ 1) 1 ∧ heapQ' 1 = heapQ 1 ∧
    (nearRun okfCfg heapQ 2).objs.map (fun o => (o.lastDet, o.once, (o.positions okfCfg.flt).data)) =
      [(1, [true, true], [2, 3, 4440 / 151, 40])] ∧
    (nearRun okfCfg heapQ' 2).objs.map (fun o => (o.lastDet, o.once, (o.positions okfCfg.flt).data)) =
      [(1, [true, true], [2, 3, 8440 / 151, 40])] := by
  refine ⟨?_, ?_, ⟨⟨_, rfl, fun _ _ _ _ _ _ _ => rfl⟩, fun f hf => by cases hf⟩, C112_filters.1 _, ?_, rfl,
    by decide +kernel, by decide +kernel⟩
  · intro r
    match r with
    | 0 =>
      have key : AgreePts (Seen (0 : ℚ) (heapQ 0)) (⟨2, 2, [2, 3, 0, 0]⟩ : Pts ℚ) ⟨2, 2, [2, 3, 100, 100]⟩ := by
        refine ⟨rfl, rfl, rfl, ?_⟩
        intro i hi j hj
        obtain ⟨s, hs, hlt⟩ := hi [1, 0] rfl
        change j < 2 at hj
        match i, j, hj with
        | 0, 0, _ => rfl
        | 0, 1, _ => rfl
        | 1, _, _ =>
          cases hs
          exact absurd hlt (lt_irrefl _)
        | i + 2, _, _ => simp at hs
      exact ⟨rfl, rfl, rfl, rfl, key, key⟩
    | r + 1 =>
      exact ⟨rfl, rfl, rfl, rfl, ⟨rfl, rfl, rfl, fun _ _ _ _ => rfl⟩, ⟨rfl, rfl, rfl, fun _ _ _ _ => rfl⟩⟩
  · intro r
    match r with
    | 0 => exact ⟨fun s hs => by cases hs; rfl, rfl, rfl, rfl, rfl, rfl⟩
    | r + 1 => exact ⟨fun s hs => by cases hs; rfl, rfl, rfl, rfl, rfl, rfl⟩
  · intro s hs
    cases hs
    exact ⟨1, rfl, by decide +kernel⟩

/-- C112: a homography -/
example : ∃ t : CoordTrans ℚ, homography (1 : Matrix (Fin 3) (Fin 3) ℚ) = some t ∧ Pointwise 2 t.relToAbs := by
  have h : homography (1 : Matrix (Fin 3) (Fin 3) ℚ) ≠ none := by
    rw [Ne, (C45_round_trip _).1, Matrix.det_one]
    exact one_ne_zero
  obtain ⟨t, ht⟩ := Option.ne_none_iff_exists'.mp h
  exact ⟨t, ht, (C112_homography ht).2⟩

/-- C112: a tracker with the voting distance -/
noncomputable example : ∃ cfg : Cfg ℝ Nat (WithTop ℝ) (OKF ℝ) Unit, BlindDists 2 cfg ∧ BlindFilter cfg.flt OKF.Ok ∧
    FilterLaws cfg.flt OKF.Ok :=
  ⟨{ dist := .scalar fun d v => (keypointsVoting 20 (1 / 10) d.points d.scores (v.obj.estimate (okfOps realOkf))
        v.last.scores).map (·.map (fun x : ℝ => (x : WithTop ℝ)))
     thr := ((1 / 3 : ℝ) : WithTop ℝ), fill := ((2 / 3 : ℝ) : WithTop ℝ), hitCounterMax := 4, initDelay := 1
     pwMax := 4, detThr := 0, flt := okfOps realOkf, pastLen := 2, reid := none, reidThr := 0
     reidFill := 0, reidMax := none },
    C112_keypoints_voting 2 (kthr := 20) (dthr := 1 / 10) (by norm_num) rfl rfl, C112_filters.1 _, okf_laws _⟩

end Norfair.Props
