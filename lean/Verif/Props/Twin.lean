import Verif.Lemmas.Twin
import Verif.Props.Toy
import Verif.Props.Filters
import Verif.Props.Parametric

/-! C100: rounding that flips no comparison changes no decision of the tracker. -/

set_option linter.unusedSectionVars false

namespace Norfair.Props

open Norfair Norfair.Spec

variable {K K' L D D' F F' X X' : Type}

section
variable [LinearOrder K] [Zero K] [LinearOrder D] [OrderTop D] [Zero D] [DecidableEq L]
  [LinearOrder K'] [Zero K'] [LinearOrder D'] [OrderTop D'] [Zero D']

/-- Two trackers from their construction on, with the same calls (same periods, same lists of detections), same labels,
shapes and scores over the threshold, while coordinates, estimates and distances may be computed differently. In each
call the distances compared are below the thresholds on one side if and only if on the other, and then have the same
order. -/
inductive Twins (cfg : Cfg K L D F X) (cfg' : Cfg K' L D' F' X')
    (f : Det K L X → ObjView K L D F X → Option (Option D))
    (g : Det K' L X' → ObjView K' L D' F' X' → Option (Option D')) (shape : L → Nat × Nat) :
    World K L D F X → World K' L D' F' X' → Prop
  | start {w v} : w.Initial → v.Initial → (∀ r, TwinDet cfg.detThr cfg'.detThr (w.heap r) (v.heap r)) →
      v.gcount = w.gcount → Twins cfg cfg' f g shape w v
  | call {w v} (dets : Option (List Ref)) (period : Int) {ct ct'} (Q : D → D' → Prop) :
      Twins cfg cfg' f g shape w v → (∀ r ∈ dets.getD [], DetOk shape (w.heap r)) → ShapelyTrans ct ct' →
      Below Q cfg.thr cfg'.thr →
      Compare cfg cfg' f g Q w v (startHeap w dets ct) (startHeap v dets ct') (dets.getD []) ct ct' →
      Twins cfg cfg' f g shape (update cfg w dets period ct).1 (update cfg' v dets period ct').1
  | env {w v} {heap heap'} (gcount : Nat) : Twins cfg cfg' f g shape w v → EnvOk w heap gcount →
      (∀ r, TwinDet cfg.detThr cfg'.detThr (heap r) (heap' r)) →
      Twins cfg cfg' f g shape { w with heap := heap, gcount := gcount } { v with heap := heap', gcount := gcount }

variable {cfg : Cfg K L D F X} {cfg' : Cfg K' L D' F' X'} {Ok : F → Prop} {Ok' : F' → Prop}
  {f : Det K L X → ObjView K L D F X → Option (Option D)}
  {g : Det K' L X' → ObjView K' L D' F' X' → Option (Option D')} {shape : L → Nat × Nat}

theorem ShapelyTrans.callOk {ct : Option (CoordTrans K)} {ct' : Option (CoordTrans K')} (h : ShapelyTrans ct ct')
    {dets : List Ref} {heap : Ref → Det K L X} (hd : ∀ r ∈ dets, DetOk shape (heap r)) :
    CallOk shape dets ct heap := by
  refine ⟨?_, hd⟩
  rintro c rfl a p h1 h2 h3
  cases h with
  | some hc => exact hc.1.1 p h3

theorem Twins.reaches {w : World K L D F X} {v : World K' L D' F' X'} (h : Twins cfg cfg' f g shape w v) :
    ∃ w0 : World K L D F X, w0.Initial ∧ WfReaches cfg shape w0 w := by
  induction h with
  | @start w _ h0 _ _ _ => exact ⟨w, h0, .refl _⟩
  | call dets period Q _ hd hct _ _ ih =>
    obtain ⟨w0, h0, h⟩ := ih
    exact ⟨w0, h0, .call _ _ _ h (ShapelyTrans.callOk hct hd)⟩
  | env gcount _ he _ ih =>
    obtain ⟨w0, h0, h⟩ := ih
    exact ⟨w0, h0, .env _ _ h he trivial⟩

theorem twinDet_rel {d : Det K L X} {e : Det K' L X'} {Q : D → D' → Prop} {fo : FilterOps K F} {go : FilterOps K' F'}
    {thr : K} {thr' : K'} (r : Ref) (h : TwinDet thr thr' d e) :
    (twinCorr fo go Ok Ok' thr thr' Q : Corr K K' L L D D' F F' X X').Dets r d e := by
  have hp : ∀ {p : Pts K} {q : Pts K'}, SameShapes p q →
      PtsRel (fun _ _ => True) (fun l m => m.length = l.length) p q := fun h =>
    ⟨trivial, h.n, h.dim, h.len, by rw [h.len, h.len', h.n, h.dim]⟩
  exact ⟨hp h.points, h.seen, h.label.symm, trivial, hp h.absPoints, h.age⟩

/-- one call -/
theorem twin_call (hL : FilterLaws cfg.flt Ok) (hL' : FilterDims cfg'.flt Ok') (hA : SameArgs cfg cfg')
    (hf : cfg.dist = .scalar f) (hg : cfg'.dist = .scalar g) {Q Q' : D → D' → Prop} (hQ : Below Q cfg.thr cfg'.thr)
    {w : World K L D F X} {v : World K' L D' F' X'} (hn : w.keys.Nodup) (hd : DimOk cfg.flt w)
    (h : (twinCorr cfg.flt cfg'.flt Ok Ok' cfg.detThr cfg'.detThr Q').Worlds w v) {dets : Option (List Ref)}
    (period : Int) {ct : Option (CoordTrans K)} {ct' : Option (CoordTrans K')} (hct : ShapelyTrans ct ct')
    (hC : Compare cfg cfg' f g Q w v (startHeap w dets ct) (startHeap v dets ct') (dets.getD []) ct ct') :
    (twinCorr cfg.flt cfg'.flt Ok Ok' cfg.detThr cfg'.detThr Q').Worlds (update cfg w dets period ct).1
      (update cfg' v dets period ct').1 ∧
    Alike TwinObj (update cfg w dets period ct).2 (update cfg' v dets period ct').2 := by
  cases hct with
  | none =>
    cases dets with
    | none => exact twin_core_call hL hL' hA hf hg hQ hn hd h period .none hC
    | some l => exact twin_core_call hL hL' hA hf hg hQ hn hd h period .none hC
  | @some c c' hc =>
    cases dets with
    | none => exact ⟨h, .error _⟩
    | some l =>
      have htr : (twinCorr cfg.flt cfg'.flt Ok Ok' cfg.detThr cfg'.detThr Q' :
          Corr K K' L L D D' F F' X X').Trans c c' := by
        refine ⟨?_, ?_⟩
        · intro p q hpq
          have hv : q.data.length = p.data.length := hpq.vec
          obtain ⟨a1, a2, a3⟩ := hc.1.1 p hpq.len
          obtain ⟨b1, b2, b3⟩ := hc.2.1 q (by rw [hv, hpq.len, hpq.n, hpq.dim])
          exact ⟨trivial, by rw [a1, b1, hpq.n], by rw [a2, b2, hpq.dim], by rw [a1, a2, a3, hpq.len],
            by show List.length _ = List.length _; rw [a3, b3, hv]⟩
        · intro p q hpq
          have hv : q.data.length = p.data.length := hpq.vec
          obtain ⟨a1, a2, a3⟩ := hc.1.2 p hpq.len
          obtain ⟨b1, b2, b3⟩ := hc.2.2 q (by rw [hv, hpq.len, hpq.n, hpq.dim])
          exact ⟨trivial, by rw [a1, b1, hpq.n], by rw [a2, b2, hpq.dim], by rw [a1, a2, a3, hpq.len],
            by show List.length _ = List.length _; rw [a3, b3, hv]⟩
      refine twin_core_call hL hL' hA hf hg hQ (w := { w with heap := l.foldl (transformDet c) w.heap })
        (v := { v with heap := l.foldl (transformDet c') v.heap }) hn hd
        ⟨transform_rel ⟨rfl, rfl⟩ htr l _ _ h.heap, h.gcount, h.count, h.initCount, h.objs⟩ period (.some hc) ?_
      intro r hr o ho p hp e1 e2 e3
      refine hC r hr o ho p hp e1 e2 ?_
      obtain ⟨a, e⟩ := startHeap_fields w (some l) (some c) r
      change (startHeap w (some l) (some c) r).label = _ at e3
      rw [e] at e3
      exact e3

theorem Twins.worlds (hL : FilterLaws cfg.flt Ok) (hL' : FilterDims cfg'.flt Ok') (hA : SameArgs cfg cfg')
    (hf : cfg.dist = .scalar f) (hg : cfg'.dist = .scalar g) {w : World K L D F X} {v : World K' L D' F' X'}
    (h : Twins cfg cfg' f g shape w v) (Q' : D → D' → Prop) :
    w.keys.Nodup ∧ DimOk cfg.flt w ∧ (twinCorr cfg.flt cfg'.flt Ok Ok' cfg.detThr cfg'.detThr Q').Worlds w v := by
  have hs : ∀ a b, Compat cfg a b → shape a = shape b := by
    intro a b hab
    unfold Compat at hab
    rw [hf] at hab
    simp only at hab
    rw [hab]
  have base : ∀ {w : World K L D F X} {v : World K' L D' F' X'}, Twins cfg cfg' f g shape w v →
      w.keys.Nodup ∧ DimOk cfg.flt w := by
    intro w v h
    obtain ⟨w0, h0, hr⟩ := Twins.reaches h
    have hre : Reachable cfg w := ⟨w0, h0, hr.mono (fun _ _ _ => trivial) (fun _ _ _ _ _ => trivial)⟩
    exact ⟨hre.inv.nodup, fun o ho => (WfReaches.pointsOk hL hs h0 hr o ho).dimZ⟩
  refine ⟨(base h).1, (base h).2, ?_⟩
  induction h with
  | start h0 h0' hh hg =>
    refine ⟨fun r => twinDet_rel r (hh r), hg, by rw [h0.2.1, h0'.2.1], by rw [h0.2.2, h0'.2.2], ?_⟩
    rw [h0.1, h0'.1]
    exact .nil
  | call dets period Q hp _ hct hQ hC ih =>
    exact (twin_call hL hL' hA hf hg hQ (base hp).1 (base hp).2 ih period hct hC).1
  | env gcount _ _ hh ih => exact ⟨fun r => twinDet_rel r (hh r), rfl, ih.count, ih.initCount, ih.objs⟩

/-- **C100** Two trackers have the same arguments (no ReID distance), but filters and distances are computed differently,
perhaps even on other numbers. As long as each comparison that decides something (a distance with the threshold, two
distances below it) comes out alike, they raise the same exceptions and return, in the same order, objects with the same
ids, counters, ages, labels, matched and past detections, and live points. About the other filter nothing is assumed but
the lengths of its arrays. -/
theorem C100_same_decisions (hL : FilterLaws cfg.flt Ok) (hL' : FilterDims cfg'.flt Ok') (hA : SameArgs cfg cfg')
    (hf : cfg.dist = .scalar f) (hg : cfg'.dist = .scalar g) {w : World K L D F X} {v : World K' L D' F' X'}
    (h : Twins cfg cfg' f g shape w v) (dets : Option (List Ref)) (period : Int) {ct : Option (CoordTrans K)}
    {ct' : Option (CoordTrans K')} (hct : ShapelyTrans ct ct') {Q : D → D' → Prop} (hQ : Below Q cfg.thr cfg'.thr)
    (hC : Compare cfg cfg' f g Q w v (startHeap w dets ct) (startHeap v dets ct') (dets.getD []) ct ct') :
    Alike TwinObj (update cfg w dets period ct).2 (update cfg' v dets period ct').2 ∧
    List.Forall₂ TwinObj (update cfg w dets period ct).1.objs (update cfg' v dets period ct').1.objs ∧
    (update cfg' v dets period ct').1.count = (update cfg w dets period ct).1.count := by
  obtain ⟨hn, hd, hw⟩ := Twins.worlds hL hL' hA hf hg h (fun _ _ => False)
  obtain ⟨h1, h2⟩ := twin_call hL hL' hA hf hg hQ hn hd hw period hct hC
  exact ⟨h2, h1.objs.imp fun _ _ h => twin_obj h, h1.count⟩

/-- the two distances of each detection and object with the same label, for distances of points and estimates -/
def distPairs (cfg : Cfg K L D F X) (cfg' : Cfg K' L D' F' X') (f : Pts K → Pts K → Option (Option D))
    (g : Pts K' → Pts K' → Option (Option D')) (w : World K L D F X) (v : World K' L D' F' X') (dets : List Ref)
    (ct : Option (CoordTrans K)) (ct' : Option (CoordTrans K')) :
    List (Option (Option D) × Option (Option D')) :=
  dets.flatMap fun r => w.objs.flatMap fun o => v.objs.filterMap fun p =>
    if p.initId = o.initId ∧ (w.heap r).label = o.label then
      some (f (w.heap r).points (((o.trackerStep cfg).updateCT ct).estimate cfg.flt),
        g (v.heap r).points (((p.trackerStep cfg').updateCT ct').estimate cfg'.flt))
    else none

/-- exceptions and NaN are the same on both sides, and so is being below the threshold -/
def AgreeOne (thr : D) (thr' : D') : Option (Option D) × Option (Option D') → Prop
  | (some (some a), some (some x)) => a < thr ↔ x < thr'
  | (some none, some none) => True
  | (none, none) => True
  | _ => False

/-- the order is the same on both sides below the threshold -/
def AgreeTwo (thr : D) : Option (Option D) × Option (Option D') → Option (Option D) × Option (Option D') → Prop
  | (some (some a), some (some x)), (some (some b), some (some y)) => a < thr → b < thr → (a < b ↔ x < y)
  | _, _ => True

/-- all comparisons come out alike -/
def Agree (thr : D) (thr' : D') (l : List (Option (Option D) × Option (Option D'))) : Prop :=
  (∀ e ∈ l, AgreeOne thr thr' e) ∧ ∀ e ∈ l, ∀ e' ∈ l, AgreeTwo thr e e'

instance (thr : D) (thr' : D') (e) : Decidable (AgreeOne thr thr' e) := by
  unfold AgreeOne
  split <;> infer_instance

instance (thr : D) (e e' : Option (Option D) × Option (Option D')) : Decidable (AgreeTwo thr e e') := by
  unfold AgreeTwo
  split <;> infer_instance

instance (thr : D) (thr' : D') (l) : Decidable (Agree thr thr' l) := by
  unfold Agree
  infer_instance

/-- the values that occur -/
def Occur (l : List (Option (Option D) × Option (Option D'))) (a : D) (x : D') : Prop := (some (some a), some (some x)) ∈ l

/-- **C100** (distances of points) For distances of the points of the detection and the estimate of the object, it is
enough to look at the finitely many pairs of a call. -/
theorem C100_points {f : Pts K → Pts K → Option (Option D)} {g : Pts K' → Pts K' → Option (Option D')}
    {w : World K L D F X} {v : World K' L D' F' X'} {dets : Option (List Ref)} {ct : Option (CoordTrans K)}
    {ct' : Option (CoordTrans K')}
    (h : Agree cfg.thr cfg'.thr (distPairs cfg cfg' f g w v (dets.getD []) ct ct')) :
    Below (Occur (distPairs cfg cfg' f g w v (dets.getD []) ct ct')) cfg.thr cfg'.thr ∧
    Compare cfg cfg' (fun d u => f d.points (u.obj.estimate cfg.flt)) (fun d u => g d.points (u.obj.estimate cfg'.flt))
      (Occur (distPairs cfg cfg' f g w v (dets.getD []) ct ct')) w v (startHeap w dets ct) (startHeap v dets ct')
      (dets.getD []) ct ct' := by
  refine ⟨⟨fun a x hq => h.1 _ hq, fun a b x y hq hq' => h.2 _ hq _ hq'⟩, ?_⟩
  intro r hr o ho p hp e1 e2 e3 h1 h2 a1 a2 _
  obtain ⟨b1, c1⟩ := a1 r
  obtain ⟨b2, c2⟩ := a2 r
  obtain ⟨b3, c3⟩ := startHeap_fields w dets ct r
  obtain ⟨b4, c4⟩ := startHeap_fields v dets ct' r
  have hmem : (f (w.heap r).points (((o.trackerStep cfg).updateCT ct).estimate cfg.flt),
      g (v.heap r).points (((p.trackerStep cfg').updateCT ct').estimate cfg'.flt)) ∈
      distPairs cfg cfg' f g w v (dets.getD []) ct ct' := by
    unfold distPairs
    refine List.mem_flatMap.mpr ⟨r, hr, List.mem_flatMap.mpr ⟨o, ho, List.mem_filterMap.mpr ⟨p, hp, ?_⟩⟩⟩
    rw [if_pos ⟨e1, e3⟩]
  have hm := h.1 _ hmem
  have e4 : (h1 r).points = (w.heap r).points := by rw [c1, c3]
  have e5 : (h2 r).points = (v.heap r).points := by rw [c2, c4]
  simp only [Obj.view]
  rw [e4, e5]
  revert hm hmem
  generalize f (w.heap r).points _ = a
  generalize g (v.heap r).points _ = b
  intro hmem hm
  rcases a with _ | _ | a <;> rcases b with _ | _ | b <;> simp only [AgreeOne] at hm
  · exact .none
  · exact .some .none
  · exact .some (.some hmem)

/-- the same after any such history -/
theorem C100_history (hL : FilterLaws cfg.flt Ok) (hL' : FilterDims cfg'.flt Ok') (hA : SameArgs cfg cfg')
    (hf : cfg.dist = .scalar f) (hg : cfg'.dist = .scalar g) {w : World K L D F X} {v : World K' L D' F' X'}
    (h : Twins cfg cfg' f g shape w v) : List.Forall₂ TwinObj w.objs v.objs :=
  (Twins.worlds hL hL' hA hf hg h fun _ _ => False).2.2.objs.imp fun _ _ h => twin_obj h

end

/-- **C100** (rounding) If rounding errors of distances are at most `ε`, no distance is within `ε` of the threshold, and
two distances below it differ by more than `2 ε` (or are equal on both sides), then all comparisons come out alike. -/
theorem C100_rounding {A : Type} [LinearOrder A] [AddCommGroup A] [IsOrderedAddMonoid A] {ε t : A} {Q : A → A → Prop}
    (h : Near ε t Q) : Below (FinitePair Q) (t : WithTop A) (t : WithTop A) := by
  have he : ∀ a x, Q a x → a ≤ x + ε ∧ x ≤ a + ε := by
    intro a x hq
    obtain ⟨h1, h2⟩ := abs_le.mp (h.error a x hq)
    refine ⟨?_, ?_⟩
    · exact sub_le_iff_le_add'.mp h2
    · exact neg_le_sub_iff_le_add.mp h1
  have h0 : ∀ a x, Q a x → 0 ≤ ε := fun a x hq => (abs_nonneg _).trans (h.error a x hq)
  refine ⟨?_, ?_⟩
  · rintro _ _ ⟨a, x, rfl, rfl, hq⟩
    rw [WithTop.coe_lt_coe, WithTop.coe_lt_coe]
    rcases h.margin a x hq with hm | hm
    · exact ⟨fun _ => (he a x hq).2.trans_lt hm, fun _ => lt_of_le_of_lt (le_add_of_nonneg_right (h0 a x hq)) hm⟩
    · refine ⟨fun hl => absurd hl (not_lt.mpr ((le_add_of_nonneg_right (h0 a x hq)).trans hm)), fun hl => ?_⟩
      have := (hm.trans (he a x hq).1)
      exact absurd hl (not_lt.mpr (le_of_add_le_add_right this))
  · rintro _ _ _ _ ⟨a, x, rfl, rfl, hq⟩ ⟨b, y, rfl, rfl, hq'⟩ ha hb
    rw [WithTop.coe_lt_coe] at ha hb
    rw [WithTop.coe_lt_coe, WithTop.coe_lt_coe]
    rcases h.apart a b x y hq hq' ha hb with ⟨rfl, rfl⟩ | hgap
    · simp
    · have key : ∀ a b x y, Q a x → Q b y → ε + ε < |a - b| → a < b → x < y := by
        intro a b x y h1 h2 hg hl
        rw [abs_of_neg (sub_neg.mpr hl), neg_sub] at hg
        have h3 : ε + ε + a < b := lt_sub_iff_add_lt.mp hg
        have h4 : x + ε ≤ ε + ε + a := by
          calc x + ε ≤ a + ε + ε := by gcongr; exact (he a x h1).2
            _ = ε + ε + a := by rw [add_assoc, add_comm]
        exact lt_of_add_lt_add_right ((h4.trans_lt h3).trans_le (he b y h2).1)
      refine ⟨key a b x y hq hq' hgap, fun hl => ?_⟩
      by_contra hnl
      rcases (not_lt.mp hnl).lt_or_eq with h1 | h1
      · exact absurd (key b a y x hq' hq (by rwa [abs_sub_comm]) h1) (lt_asymm hl)
      · subst h1
        rw [sub_self, abs_zero] at hgap
        exact absurd (add_nonneg (h0 _ _ hq) (h0 _ _ hq)) (not_le.mpr hgap)

/-! ### Examples -/

open Norfair.Toy

/-- absolute difference of first coordinates, exactly -/
def exactDiff (p q : Pts ℚ) : Option (Option (WithTop ℚ)) :=
  match p.data, q.data with
  | a :: _, b :: _ => some (some ((|a - b| : ℚ) : WithTop ℚ))
  | _, _ => none

/-- absolute difference of first coordinates, of integers -/
def roundDiff (p q : Pts Int) : Option (Option (WithTop Nat)) :=
  match p.data, q.data with
  | a :: _, b :: _ => some (some ((a - b).natAbs : Nat))
  | _, _ => none

/-- an exact Kalman filter -/
def exactCfg : Cfg ℚ Nat (WithTop ℚ) (OKF ℚ) Unit where
  dist := .scalar fun d u => exactDiff d.points (u.obj.estimate (okfOps okfDefaults))
  thr := ((10 : ℚ) : WithTop ℚ)
  fill := ((11 : ℚ) : WithTop ℚ)
  hitCounterMax := 4
  initDelay := 1
  pwMax := 4
  detThr := 0
  flt := okfOps okfDefaults
  pastLen := 2
  reid := none
  reidThr := 0
  reidFill := 1
  reidMax := none

/-- no filter, integers -/
def roundCfg : TCfg := { cfg with dist := .scalar fun d u => roundDiff d.points (u.obj.estimate noFilterOps) }

/-- detection `r` is at `2 r + 1/3` -/
def exactHeap : Ref → Det ℚ Nat Unit := fun r =>
  ⟨⟨1, 1, [2 * (r : ℚ) + 1 / 3]⟩, none, 0, (), ⟨1, 1, [2 * (r : ℚ) + 1 / 3]⟩, none⟩

/-- detection `r` is at `2 r` -/
def roundHeap : Ref → TDet := fun r => det (2 * r)

def exactW0 : World ℚ Nat (WithTop ℚ) (OKF ℚ) Unit := ⟨exactHeap, 0, 0, 0, []⟩
def roundW0 : TWorld := ⟨roundHeap, 0, 0, 0, []⟩

theorem twin_args : SameArgs exactCfg roundCfg :=
  ⟨rfl, rfl, rfl, rfl, rfl, rfl, rfl, by decide +kernel, by decide +kernel⟩

/-- a call of the example -/
theorem twin_step {w : World ℚ Nat (WithTop ℚ) (OKF ℚ) Unit} {v : TWorld} (l : List Ref)
    (h : Twins exactCfg roundCfg (fun d u => exactDiff d.points (u.obj.estimate (okfOps okfDefaults)))
      (fun d u => roundDiff d.points (u.obj.estimate noFilterOps)) (fun _ => (1, 1)) w v)
    (hd : ∀ r ∈ l, DetOk (fun _ => (1, 1)) (w.heap r))
    (ha : Agree exactCfg.thr roundCfg.thr (distPairs exactCfg roundCfg exactDiff roundDiff w v l none none)) :
    Twins exactCfg roundCfg (fun d u => exactDiff d.points (u.obj.estimate (okfOps okfDefaults)))
      (fun d u => roundDiff d.points (u.obj.estimate noFilterOps)) (fun _ => (1, 1))
      (update exactCfg w (some l) 1 none).1 (update roundCfg v (some l) 1 none).1 :=
  have hp := C100_points (cfg := exactCfg) (cfg' := roundCfg) (dets := some l) (ct := none) (ct' := none) ha
  .call (some l) 1 _ h hd .none hp.1 hp.2

theorem twin_start : Twins exactCfg roundCfg (fun d u => exactDiff d.points (u.obj.estimate (okfOps okfDefaults)))
    (fun d u => roundDiff d.points (u.obj.estimate noFilterOps)) (fun _ => (1, 1)) exactW0 roundW0 :=
  .start ⟨rfl, rfl, rfl⟩ ⟨rfl, rfl, rfl⟩ (fun r => ⟨rfl, rfl, ⟨rfl, rfl, rfl, rfl⟩, ⟨rfl, rfl, rfl, rfl⟩, .none⟩) rfl

instance (d : Det ℚ Nat Unit) : Decidable (DetOk (fun _ => (1, 1)) d) := by
  unfold DetOk
  have : Decidable (∀ s, d.scores = some s → s.length = d.absPoints.n) := by
    cases h : d.scores with
    | none => exact .isTrue (by simp)
    | some s => exact decidable_of_iff (s.length = d.absPoints.n) (by simp)
  infer_instance

/-- C100: an exact Kalman filter and a tracker with integers and no filter, two moving objects that are matched in three
calls; the estimates differ -/
theorem twin_example : Twins exactCfg roundCfg (fun d u => exactDiff d.points (u.obj.estimate (okfOps okfDefaults)))
    (fun d u => roundDiff d.points (u.obj.estimate noFilterOps)) (fun _ => (1, 1))
    (runs exactCfg exactW0 [[0, 50], [1, 51], [52, 2]]) (runs roundCfg roundW0 [[0, 50], [1, 51], [52, 2]]) :=
  twin_step _ (twin_step _ (twin_step _ twin_start (by decide +kernel) (by decide +kernel)) (by decide +kernel)
    (by decide +kernel)) (by decide +kernel) (by decide +kernel)

example : List.Forall₂ TwinObj (runs exactCfg exactW0 [[0, 50], [1, 51], [52, 2]]).objs
    (runs roundCfg roundW0 [[0, 50], [1, 51], [52, 2]]).objs :=
  C100_history (okf_laws okfDefaults) (filterLaws_dims noFilter_laws) twin_args rfl rfl twin_example

example : (runs exactCfg exactW0 [[0, 50], [1, 51], [52, 2]]).objs.map (fun o => (o.id, o.lastDet)) =
      [(some 1, 2), (some 2, 52)] ∧
    (runs exactCfg exactW0 [[0, 50], [1, 51], [52, 2]]).objs.map (fun o => (o.estimate exactCfg.flt).data.map (decide <| · = 4)) =
      [[false], [false]] := by decide +kernel

/-- C100: a further call -/
example : Alike TwinObj
    (update exactCfg (runs exactCfg exactW0 [[0, 50], [1, 51], [52, 2]]) (some [3, 90, 53]) 1 none).2
    (update roundCfg (runs roundCfg roundW0 [[0, 50], [1, 51], [52, 2]]) (some [3, 90, 53]) 1 none).2 :=
  have hp := C100_points (cfg := exactCfg) (cfg' := roundCfg) (f := exactDiff) (g := roundDiff)
    (w := runs exactCfg exactW0 [[0, 50], [1, 51], [52, 2]]) (v := runs roundCfg roundW0 [[0, 50], [1, 51], [52, 2]])
    (dets := some [3, 90, 53]) (ct := none) (ct' := none) (by decide +kernel)
  (C100_same_decisions (okf_laws okfDefaults) (filterLaws_dims noFilter_laws) twin_args rfl rfl twin_example
    (some [3, 90, 53]) 1 .none hp.1 hp.2).1

/-- C100: distances 3, 6 and 15 rounded to 2, 7 and 14, threshold 10 -/
example : Near (1 : ℤ) 10 (fun a x => (a, x) ∈ [(3, 2), (6, 7), (15, 14)]) where
  error := by
    intro a x h
    simp only [List.mem_cons, Prod.mk.injEq, List.not_mem_nil, or_false] at h
    rcases h with ⟨rfl, rfl⟩ | ⟨rfl, rfl⟩ | ⟨rfl, rfl⟩ <;> decide
  margin := by
    intro a x h
    simp only [List.mem_cons, Prod.mk.injEq, List.not_mem_nil, or_false] at h
    rcases h with ⟨rfl, rfl⟩ | ⟨rfl, rfl⟩ | ⟨rfl, rfl⟩ <;> decide
  apart := by
    intro a b x y h h'
    simp only [List.mem_cons, Prod.mk.injEq, List.not_mem_nil, or_false] at h h'
    rcases h with ⟨rfl, rfl⟩ | ⟨rfl, rfl⟩ | ⟨rfl, rfl⟩ <;>
      rcases h' with ⟨rfl, rfl⟩ | ⟨rfl, rfl⟩ | ⟨rfl, rfl⟩ <;> decide

/-- **C100** (the condition is needed) Rounding that turns a difference of distances into a tie changes which object gets
the detection: object 2 at distance 3 or object 1 at distance 4, which both become 4. -/
theorem C100_ties :
    let even : TCfg := { cfg with dist := .scalar fun d u =>
      (roundDiff d.points (u.obj.estimate noFilterOps)).map fun e => e.map fun x => x.map fun n => 2 * ((n + 1) / 2) }
    (run cfg w0 [[0, 7], [0, 7], [4]]).objs.map (fun o => (o.id, o.lastDet)) = [(some 1, 0), (some 2, 4)] ∧
    (run even w0 [[0, 7], [0, 7], [4]]).objs.map (fun o => (o.id, o.lastDet)) = [(some 1, 4), (some 2, 7)] := by
  decide +kernel

end Norfair.Props
