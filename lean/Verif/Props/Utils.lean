import Verif.Model.Utils
import Verif.Lemmas.PointsInv
import Verif.Lemmas.FilterLaws
import Verif.Lemmas.Trace
import Verif.Props.Toy
import Verif.Props.Drawing

/-! C75, C76, C78: objects printed as a table, the shape of detections, drawing what a tracker returns. -/

set_option linter.unusedSectionVars false

namespace Norfair.Props

open Norfair Norfair.Spec Norfair.Toy

variable {K L D F X : Type}

/-! ### C75: print_objects_as_table, repr -/

/-- **C75**: `print_objects_as_table` raises if and only if one of the objects was never matched; otherwise
there is one row per object, in order. -/
theorem C75_table (str : Int → List Char) (fmt : D → List Char) (objs : List (Obj K L D F)) :
    ((∃ o ∈ objs, o.lastDistance = none) → printTable str fmt objs = none) ∧
    ((∀ o ∈ objs, o.lastDistance ≠ none) → ∃ rows, printTable str fmt objs = some rows ∧
      rows.length = objs.length ∧
      ∀ (i : Nat) (o : Obj K L D F), objs[i]? = some o → ∃ (d : D) (row : List (List Char)), o.lastDistance = some d ∧ rows[i]? = some row ∧
        row.getLast? = some (str o.initId) ∧ row[3]? = some (fmt d)) := by
  unfold printTable
  induction objs with
  | nil => exact ⟨by simp, fun _ => ⟨[], rfl, rfl, by simp⟩⟩
  | cons a l ih =>
    rw [List.mapM_cons]
    constructor
    · rintro ⟨o, ho, hn⟩
      rcases List.mem_cons.mp ho with rfl | ho
      · simp [tableRow, hn]
      · rw [ih.1 ⟨o, ho, hn⟩]
        cases tableRow str fmt a <;> rfl
    · intro h
      obtain ⟨rows, h1, h2, h3⟩ := ih.2 (fun o ho => h o (List.mem_cons_of_mem _ ho))
      obtain ⟨d, hd⟩ := Option.ne_none_iff_exists'.mp (h a List.mem_cons_self)
      refine ⟨[strOpt str (a.id.map Int.ofNat), str a.age, str a.hitCounter, fmt d, str a.initId] :: rows,
        ?_, by simp [h2], ?_⟩
      · rw [h1]; simp [tableRow, hd]
      · intro i o ho
        cases i with
        | zero =>
          cases ho
          exact ⟨d, _, hd, rfl, rfl, rfl⟩
        | succ i => exact h3 i o ho

section
variable [LinearOrder K] [Zero K] [LinearOrder D] [OrderTop D] [Zero D] [DecidableEq L]

/-- an initialized object was matched -/
theorem matched_inv {cfg : Cfg K L D F X} {Ok : F → Prop} (hL : FilterLaws cfg.flt Ok)
    {shape : L → Nat × Nat} (hs : ∀ a b, Compat cfg a b → shape a = shape b) (hreid : cfg.reid = none)
    (dets : List Ref) (period : Int) (hp : period ≤ cfg.initDelay) (ct : Option (CoordTrans K)) :
    ObjInv cfg dets period ct (CallOk shape dets ct)
      (fun _ o => PointsOk cfg.flt Ok shape o ∧ (o.isInit = false → o.lastDistance ≠ none)) :=
  let base := pointsOk_inv hL hs dets period ct
  { heapAges := base.heapAges
    heapTransform := base.heapTransform
    ages := fun _ _ _ _ h => h
    transform := fun _ _ _ _ _ _ h => h
    step := by
      intro h o hc hq
      refine ⟨base.step h o hc hq.1, ?_⟩
      obtain ⟨g, e⟩ := updateCT_fields ct (o.trackerStep cfg)
      rw [e]
      exact hq.2
    setMin := fun h o v hv hq => ⟨base.setMin h o v hv hq.1, hq.2⟩
    hit := fun h g c o r d hH hr hc hd hq he => ⟨base.hit h g c o r d hH hr hc hd hq.1 he, fun _ => by simp⟩
    hitErr := by
      intro h g c o r hH hr hc hq he
      rcases hitObj_noShape (g := g) (c := c) (period := period) hq.1 (hH.2 r hr) (hs _ _ hc) with
        e | ⟨_, e⟩
      · exact absurd e he
      · rw [e]; exact hq
    merge := fun _ _ _ hr => absurd hreid hr
    create := by
      intro w r hH hr
      refine ⟨base.create w r hH hr, ?_⟩
      obtain ⟨g, hg⟩ := newObj_fields cfg w r period ct
      rw [hg]
      intro hi
      simp [newObj, Obj.updateCT, hp] at hi }

/-- **C75**: what a tracker without ReID returns can be printed as a table, if all calls so far had
well-formed detections and a period of at most `initialization_delay`.
Missing: the objects of a tracker in general; it is false for new objects, see `C75_new_object`. -/
theorem C75_returned_partial {cfg : Cfg K L D F X} {Ok : F → Prop} (hL : FilterLaws cfg.flt Ok)
    {shape : L → Nat × Nat} (hs : ∀ a b, Compat cfg a b → shape a = shape b) (hreid : cfg.reid = none)
    {w0 w : World K L D F X} (h0 : w0.Initial)
    (hw : Reaches cfg (fun _ _ => True) (fun dets period ct w =>
      CallOk shape (dets.getD []) ct w.heap ∧ period ≤ cfg.initDelay) w0 w)
    (str : Int → List Char) (fmt : D → List Char) :
    ∃ rows, printTable str fmt (activeObjects w) = some rows ∧
      rows.length = (activeObjects w).length := by
  have hinv : ∀ o ∈ w.objs, PointsOk cfg.flt Ok shape o ∧ (o.isInit = false → o.lastDistance ≠ none) :=
    Reaches.objInv (Q := fun _ o => PointsOk cfg.flt Ok shape o ∧ (o.isInit = false → o.lastDistance ≠ none))
      hw (Inv.initial h0)
      (fun dets period ct _ hc => ⟨_, hc.1, matched_inv hL hs hreid (dets.getD []) period hc.2 ct⟩)
      (fun _ _ _ _ _ h => h) (by rw [h0.1]; simp)
  obtain ⟨rows, h1, h2, -⟩ := (C75_table str fmt (activeObjects w)).2 (by
    intro o ho
    obtain ⟨ho1, ho2⟩ := List.mem_filter.mp ho
    refine (hinv o ho1).2 ?_
    simp only [Bool.and_eq_true, Bool.not_eq_true'] at ho2
    exact ho2.1)
  exact ⟨rows, h1, h2⟩

end

/-- the tracker of the examples: three updates with two objects -/
example (ls : List (List Ref))
    (hls : Reaches cfg (fun _ _ => True) (fun dets period ct w =>
      CallOk (fun _ : Nat => (1, 1)) (dets.getD []) ct w.heap ∧ period ≤ cfg.initDelay) w0 (run cfg w0 ls)) :
    ∃ rows, printTable (fun _ => []) (fun _ => []) (activeObjects (run cfg w0 ls)) = some rows ∧
      rows.length = (activeObjects (run cfg w0 ls)).length :=
  C75_returned_partial (shape := fun _ => (1, 1)) noFilter_laws (fun _ _ _ => rfl) rfl w0_initial hls _ _

/-- such a history: two detections, then two close to them; both objects are returned by the second call -/
example : Reaches cfg (fun _ _ => True) (fun dets period ct w =>
      CallOk (fun _ : Nat => (1, 1)) (dets.getD []) ct w.heap ∧ period ≤ cfg.initDelay) w0
        (run cfg w0 [[0, 50], [1, 51]]) ∧
    ((activeObjects (run cfg w0 [[0, 50], [1, 51]])).map (·.initId)) = [1, 2] := by
  refine ⟨.call (some [1, 51]) 1 none (.call (some [0, 50]) 1 none (.refl _) ⟨⟨by simp, ?_⟩, by decide⟩)
    ⟨⟨by simp, ?_⟩, by decide⟩, by decide +kernel⟩
  · intro r hr
    exact ⟨rfl, rfl, rfl, by intro s hs; cases hs⟩
  · have h : ∀ r ∈ [1, 51], (run cfg w0 [[0, 50]]).heap r = heap r := by
      intro r hr
      simp only [List.mem_cons, List.not_mem_nil, or_false] at hr
      rcases hr with rfl | rfl <;> rfl
    intro r hr
    show DetOk _ ((run cfg w0 [[0, 50]]).heap r)
    rw [h r hr]
    exact ⟨rfl, rfl, rfl, by intro s hs; cases hs⟩

/-- With `initialization_delay=0` the first `update` returns an object which was never matched, and
`print_objects_as_table` raises for what `update` returned. -/
theorem C75_new_object (str : Int → List Char) (fmt : WithTop Nat → List Char) :
    (returned (update { cfg with initDelay := 0 } w0 (some [0]) 1 none)) = some [(1, some 1, 1)] ∧
    printTable str fmt (activeObjects (update { cfg with initDelay := 0 } w0 (some [0]) 1 none).1) = none := by
  refine ⟨by decide +kernel, (C75_table str fmt _).1 ?_⟩
  have h : ((activeObjects (update { cfg with initDelay := 0 } w0 (some [0]) 1 none).1).map
      (·.lastDistance)) = [none] := by decide +kernel
  have : none ∈ ((activeObjects (update { cfg with initDelay := 0 } w0 (some [0]) 1 none).1).map
      (·.lastDistance)) := by rw [h]; simp
  obtain ⟨o, ho, hn⟩ := List.mem_map.mp this
  exact ⟨o, ho, hn⟩

theorem append_sep_inj {α : Type} {x : α} : ∀ {a b s t : List α}, x ∉ s → x ∉ t →
    a ++ x :: s = b ++ x :: t → s = t
  | [], [], s, t, _, _, h => by simpa using h
  | [], b :: bs, s, t, hs, _, h => by
    simp only [List.nil_append, List.cons_append, List.cons.injEq] at h
    exact absurd (by rw [h.2]; simp) hs
  | a :: as, [], s, t, _, ht, h => by
    simp only [List.nil_append, List.cons_append, List.cons.injEq] at h
    exact absurd (by rw [← h.2]; simp) ht
  | a :: as, b :: bs, s, t, hs, ht, h => by
    simp only [List.cons_append, List.cons.injEq] at h
    exact append_sep_inj hs ht h.2

/-- **C75**: the texts of different tracked objects of a tracker are different, whatever their counters and
distances are. (`hsp`: numbers are written without spaces, `hinj`: different numbers differently.) -/
theorem C75_repr [LinearOrder K] [Zero K] [LinearOrder D] [OrderTop D] [Zero D] [DecidableEq L]
    {cfg : Cfg K L D F X} {w : World K L D F X} (hw : Reachable cfg w) (str : Int → List Char)
    (fmt : D → List Char) (hsp : ∀ i, ' ' ∉ str i) (hinj : ∀ i j, str i = str j → i = j)
    (o p : Obj K L D F) (ho : o ∈ w.objs) (hp : p ∈ w.objs) (h : objRepr str fmt o = objRepr str fmt p) :
    o = p := by
  have key : ∀ q : Obj K L D F, ∃ a, objRepr str fmt q = a ++ ' ' :: (str q.initId ++ [')']) := by
    intro q
    refine ⟨"\x1b[1mObject_".toList ++ strOpt str (q.id.map Int.ofNat) ++ "\x1b[0m(age: ".toList ++ str q.age ++
      ", hit_counter: ".toList ++ str q.hitCounter ++ ", last_distance: ".toList ++
      distText fmt q.lastDistance ++ ", init_id:".toList, ?_⟩
    unfold objRepr
    rw [show ", init_id: ".toList = ", init_id:".toList ++ [' '] from rfl, show ")".toList = [')'] from rfl]
    simp only [List.append_assoc, List.cons_append, List.nil_append]
  obtain ⟨a, ha⟩ := key o
  obtain ⟨b, hb⟩ := key p
  rw [ha, hb] at h
  have hns : ∀ i : Int, ' ' ∉ str i ++ [')'] := by
    intro i hm
    rcases List.mem_append.mp hm with hm | hm
    · exact hsp i hm
    · simp at hm
  have := append_sep_inj (hns _) (hns _) h
  have := hinj _ _ (List.append_cancel_right this)
  exact List.inj_on_of_nodup_map hw.inv.nodup ho hp (by exact_mod_cast this)

/-- a way of writing numbers that meets the hypotheses -/
def tally (i : Int) : List Char := (if i < 0 then ['-'] else []) ++ List.replicate i.natAbs '1'

example : (∀ i, ' ' ∉ tally i) ∧ (∀ i j, tally i = tally j → i = j) ∧
    Reachable cfg (run cfg w0 [[0, 50], [1, 51]]) ∧
    (run cfg w0 [[0, 50], [1, 51]]).objs.length = 2 := by
  refine ⟨?_, ?_, run_reachable _ _, by decide +kernel⟩
  · intro i h
    unfold tally at h
    rcases List.mem_append.mp h with h | h
    · split at h <;> simp at h
    · have := List.eq_of_mem_replicate h
      revert this; decide
  · intro i j h
    have hc1 := congrArg (List.count '1') h
    have hc2 := congrArg (List.count '-') h
    unfold tally at hc1 hc2
    simp only [List.count_append, List.count_replicate] at hc1 hc2
    by_cases hi : i < 0 <;> by_cases hj : j < 0 <;> simp [hi, hj] at hc1 hc2 <;> omega

/-! ### C76: the shape of detections -/

/-- **C76**: a detection cannot be made from an array with more than two axes, and only from those it
cannot. -/
theorem C76_rejected (a : NdArray K) (scores : Option (List K)) (label : L) (extra : X) :
    mkDetection a scores label extra = none ↔ 2 < a.shape.length := by
  unfold mkDetection validatePoints
  split
  · simp; omega
  · split
    · simp; omega
    · simp; omega

/-- **C76**: from an array with one axis of length `d` one gets a detection of one point with `d`
coordinates, from an array of shape `(n, d)` one of `n` points with `d` coordinates; the numbers are the
given ones, in the same order, and the absolute points are the points.
Missing: arrays without axes, which are accepted as they are, see `C76_rank_zero`. -/
theorem C76_points_partial (a : NdArray K) (h1 : 1 ≤ a.shape.length) (h2 : a.shape.length ≤ 2)
    (scores : Option (List K)) (label : L) (extra : X) :
    ∃ d det, mkDetection a scores label extra = some d ∧ d.toDet = some det ∧
      det.points.data = a.data ∧ (∀ k, a.shape = [k] → det.points.n = 1 ∧ det.points.dim = k) ∧
      (∀ n k, a.shape = [n, k] → det.points.n = n ∧ det.points.dim = k) ∧
      det.absPoints = det.points ∧ det.scores = scores ∧ det.label = label ∧ det.extra = extra ∧
      det.age = none := by
  obtain ⟨shape, data⟩ := a
  match shape, h1, h2 with
  | [k], _, _ =>
    refine ⟨_, _, rfl, rfl, rfl, ?_, ?_, rfl, rfl, rfl, rfl, rfl⟩
    · intro k' h; cases h; exact ⟨rfl, rfl⟩
    · intro n k' h; cases h
  | [n, k], _, _ =>
    refine ⟨_, _, rfl, rfl, rfl, ?_, ?_, rfl, rfl, rfl, rfl, rfl⟩
    · intro k' h; cases h
    · intro n' k' h; cases h; exact ⟨rfl, rfl⟩

/-- **C76**: making a detection from the points of a detection gives the same points. -/
theorem C76_idempotent (a b : NdArray K) (h : validatePoints a = some b) : validatePoints b = some b := by
  unfold validatePoints at h ⊢
  split at h
  · rename_i h1
    cases h
    simp [h1]
  · rename_i h1
    split at h
    · cases h
    · rename_i h2
      cases h
      rw [if_neg h1, if_neg h2]

/-- a point in the plane, and a box -/
example : (mkDetection (⟨[2], [3, 4]⟩ : NdArray Int) none 0 ()).map (fun d => d.points) =
      some ⟨[1, 2], [3, 4]⟩ ∧
    (mkDetection (⟨[2, 2], [1, 2, 3, 4]⟩ : NdArray Int) none 0 ()).map (fun d => d.points) =
      some ⟨[2, 2], [1, 2, 3, 4]⟩ ∧
    (mkDetection (⟨[1, 2, 2], [1, 2, 3, 4]⟩ : NdArray Int) none 0 ()).isNone = true := by decide

/-- An array without axes is accepted, although the detection then has no rows of points. -/
theorem C76_rank_zero (x : K) (scores : Option (List K)) (label : L) (extra : X) :
    ∃ d, mkDetection (⟨[], [x]⟩ : NdArray K) scores label extra = some d ∧ d.points.shape = [] ∧
      d.toDet = none :=
  ⟨_, rfl, rfl, rfl⟩

end Norfair.Props
