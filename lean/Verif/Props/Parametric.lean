import Verif.Lemmas.ParamFilters
import Verif.Model.Distances
import Verif.Props.Iou
import Verif.Props.Toy
import Verif.Props.Filters
import Mathlib.Tactic.Linarith

/-! C80, C81, C82: other units and another origin of the coordinates, other labels, other distances of the
same order. -/

set_option linter.unusedSectionVars false

namespace Norfair.Props

open Norfair Norfair.Spec

variable {K L L' D D' F X : Type}

/-! ### C80: other units -/

/-- **C80**: the three filters work alike in other units -/
theorem C80_filters [Field K] [LinearOrder K] [IsStrictOrderedRing K] (pr : OKFParams K) (fp : FPParams K)
    (hR : 0 < fp.R) (hQ : 0 ≤ fp.Q) (hP : 0 ≤ fp.P) (a b : Nat → K) :
    AffineLaws noFilterOps NoFilter.Ok a b ∧ AffineLaws (okfOps pr) OKF.Ok a b ∧
    AffineLaws (filterPyOps fp) (fun f => f.2.Good) a b :=
  ⟨noFilter_affine a b, okf_affine pr a b, filterPy_affine fp hR hQ hP a b⟩

/-- the active objects are among all objects, and dimensions fit -/
theorem parallel_returned {K' L' D' F' X' : Type} [Zero K] [LinearOrder K] [LinearOrder D] [OrderTop D] [Zero D]
    [DecidableEq L] [LinearOrder K'] [Zero K'] [LinearOrder D'] [OrderTop D'] [Zero D'] [DecidableEq L']
    {R : Corr K K' L L' D D' F F' X X'} {cfg : Cfg K L D F X} {cfg' : Cfg K' L' D' F' X'} {Ok : F → Prop}
    (hL : FilterLaws cfg.flt Ok) (hP : R.Plain) (hR : R.Cfgs cfg cfg') {shape : L → Nat × Nat}
    (hs : ∀ a b, Compat cfg a b → shape a = shape b) {w : World K L D F X} {w' : World K' L' D' F' X'}
    (h : Parallel R cfg cfg' shape w w') (dets : Option (List Ref)) (period : Int) {ct ct'}
    (hc : CallOk shape (dets.getD []) ct w.heap) (hct : Option.Rel R.Trans ct ct')
    {S : Obj K L D F → Obj K' L' D' F' → Prop}
    (hS : ∀ o p, R.Objs o p → cfg.flt.dimZ o.filter = o.dimZ → S o p) :
    Alike S (update cfg w dets period ct).2 (update cfg' w' dets period ct').2 ∧
    List.Forall₂ S (update cfg w dets period ct).1.objs (update cfg' w' dets period ct').1.objs := by
  have hw := Parallel.call dets period h hc hct
  have hdim := Parallel.dimOk hL hs hw
  have hobjs := (Parallel.worlds hL hs hP hR hw).objs
  have hm : ∀ {l m}, List.Forall₂ R.Objs l m →
      (∀ o ∈ l, cfg.flt.dimZ o.filter = o.dimZ) → List.Forall₂ S l m := by
    intro l m hlm
    induction hlm with
    | nil => exact fun _ => .nil
    | cons hop _ ih =>
      intro hall
      exact .cons (hS _ _ hop (hall _ (by simp))) (ih fun o ho => hall o (by simp [ho]))
  refine ⟨?_, hm hobjs hdim⟩
  have ho := Parallel.outs hL hs hP hR h dets period hct
  have hsub : ∀ act, (update cfg w dets period ct).2 = .ok act →
      ∀ o ∈ act, o ∈ (update cfg w dets period ct).1.objs := by
    intro act he o hact
    obtain ⟨w0, h0, hr⟩ := Parallel.reaches h
    have hre : Reachable cfg w := ⟨w0, h0, hr.mono (fun _ _ _ => trivial) (fun _ _ _ _ _ => trivial)⟩
    have := (update_ok hre.inv.nodup (show update cfg w dets period ct =
      ((update cfg w dets period ct).1, .ok act) from Prod.ext rfl he)).1
    rw [this] at hact
    exact (mem_activeObjects.mp hact).1
  revert ho hsub
  generalize (update cfg w dets period ct).2 = r
  generalize (update cfg' w' dets period ct').2 = r'
  rintro (⟨e⟩ | hl) hsub
  · exact .error e
  · exact .ok (hm hl fun o ho => hdim o (hsub _ rfl o ho))

section affine
variable [CommRing K] [LinearOrder K] [LinearOrder D] [OrderTop D] [Zero D] [DecidableEq L]

theorem affCorr_eq {fo : FilterOps K F} {Ok : F → Prop} {a b : Nat → K} {shape : Nat → Nat → Prop}
    {dist : D → D → Prop} {p q : Pts K}
    (h : (affCorr fo Ok a b shape dist : Corr K K L L D D F F X X).Points p q) : q = affPts a b p := by
  obtain ⟨n, dim, d⟩ := p
  obtain ⟨n', dim', d'⟩ := q
  have h1 := h.n
  have h2 := h.dim
  have h3 : d' = aff a b d := h.vec
  simp only at h1 h2
  subst h1 h2 h3
  rfl

theorem moved_of_objs {cfg cfg' : Cfg K L D F X} {Ok : F → Prop} (hL : FilterLaws cfg.flt Ok) {a b : Nat → K}
    {shape : Nat → Nat → Prop} {scale : D → D} {dist : D → D → Prop} (hd : ∀ x y, dist x y → y = scale x)
    (hR : (affCorr cfg.flt Ok a b shape dist : Corr K K L L D D F F X X).Cfgs cfg cfg')
    (hf : cfg'.flt = cfg.flt) {o p : Obj K L D F} (ho : cfg.flt.dimZ o.filter = o.dimZ)
    (h : (affCorr cfg.flt Ok a b shape dist : Corr K K L L D D F F X X).Objs o p) :
    Moved cfg.flt a b scale o p where
  initId := h.initId
  id := h.id
  globalId := h.globalId
  hitCounter := h.hitCounter
  age := h.age
  label := (show o.label = p.label from h.label).symm
  livePoints := by unfold Obj.livePoints; rw [h.pointHits]
  lastDet := h.lastDet
  past := h.past
  lastDistance := by
    have := h.lastDistance
    revert this
    cases o.lastDistance <;> cases p.lastDistance <;> intro this <;> cases this
    · rfl
    · rename_i hxy
      rw [hd _ _ hxy]; rfl
  estimate := by
    have := affCorr_eq (estimate_rel ⟨rfl, rfl⟩ hR.filters h ho)
    rwa [hf] at this
  positions := by
    have := affCorr_eq (positions_rel hR.filters h ho)
    rwa [hf] at this
  velocity := by
    obtain ⟨hk, hg⟩ := h.filter
    have hx := hL.len _ hk
    have hz : p.dimZ = o.dimZ := by unfold Obj.dimZ; rw [h.dimPoints, h.numPoints]
    unfold Obj.velocity affPts
    simp only
    rw [h.numPoints, h.dimPoints, hz]
    congr 1
    rw [hg, (hL.setX _ _ hk (by rw [affState_length, hx])).2.2, ← ho, affState_drop a b (by omega)]

/-- **C80** in general: a tracker is given the same detections in other units, its distances are rescaled,
and so are its thresholds. Then it raises the same exceptions and returns the same objects in other units. -/
theorem C80_units {cfg cfg' : Cfg K L D F X} {Ok : F → Prop} (hL : FilterLaws cfg.flt Ok) {a b : Nat → K}
    {shapes : Nat → Nat → Prop} {scale : D → D} {dist : D → D → Prop} (hd : ∀ x y, dist x y → y = scale x)
    (hR : (affCorr cfg.flt Ok a b shapes dist : Corr K K L L D D F F X X).Cfgs cfg cfg')
    (hf : cfg'.flt = cfg.flt) {shape : L → Nat × Nat} (hs : ∀ a b, Compat cfg a b → shape a = shape b)
    {w w' : World K L D F X} (h : Parallel (affCorr cfg.flt Ok a b shapes dist) cfg cfg' shape w w')
    (dets : Option (List Ref)) (period : Int) {ct ct' : Option (CoordTrans K)}
    (hc : CallOk shape (dets.getD []) ct w.heap)
    (hct : Option.Rel (affCorr cfg.flt Ok a b shapes dist : Corr K K L L D D F F X X).Trans ct ct') :
    Alike (Moved cfg.flt a b scale) (update cfg w dets period ct).2 (update cfg' w' dets period ct').2 ∧
    List.Forall₂ (Moved cfg.flt a b scale) (update cfg w dets period ct).1.objs
      (update cfg' w' dets period ct').1.objs :=
  parallel_returned hL ⟨rfl, rfl⟩ hR hs h dets period hc hct fun _ _ hop ho => moved_of_objs hL hd hR hf ho hop

end affine

/-! #### Boxes and `iou` -/

section iou
variable [Field K] [LinearOrder K] [IsStrictOrderedRing K] [DecidableEq L]

/-- coordinates `x, y, x, y, ...`: what belongs to the axis of coordinate `k` -/
def perAxis (x y : K) (k : Nat) : K := if k % 2 = 0 then x else y

theorem ofRow_aff (s t u v : K) (l : List K) :
    Box.ofRow (aff (perAxis s t) (perAxis u v) l) = (Box.ofRow l).map (Box.affine s t u v) := by
  match l with
  | [] => rfl
  | [_] => rfl
  | [_, _] => rfl
  | [_, _, _] => rfl
  | [_, _, _, _] => rfl
  | _ :: _ :: _ :: _ :: _ :: _ => rfl

theorem mapM_ofRow_aff (s t u v : K) {A A' : List (List K)}
    (h : List.Forall₂ (fun l m => m = aff (perAxis s t) (perAxis u v) l) A A') :
    A'.mapM Box.ofRow = (A.mapM Box.ofRow).map (List.map (Box.affine s t u v)) := by
  induction h with
  | nil => rfl
  | cons h1 _ ih =>
    subst h1
    rw [List.mapM_cons, List.mapM_cons, ofRow_aff, ih]
    cases Box.ofRow _ with
    | none => rfl
    | some b => cases List.mapM Box.ofRow _ <;> rfl

/-- the distance made from the name `"iou"`, over any ordered field -/
def iouDistFn (str : L → String) : DistFn K L (WithTop K) F X :=
  .vectorized str fun cs os => (iou cs os).map fun M => M.map fun e => e.map fun x : K => (x : WithTop K)

theorem iou_rel {s t : K} (hs : 0 < s) (ht : 0 < t) (u v : K) {A A' B B' : List (List K)}
    (hA : List.Forall₂ (fun l m => m = aff (perAxis s t) (perAxis u v) l) A A')
    (hB : List.Forall₂ (fun l m => m = aff (perAxis s t) (perAxis u v) l) B B') : iou A' B' = iou A B := by
  unfold iou
  rw [mapM_ofRow_aff s t u v hA, mapM_ofRow_aff s t u v hB]
  cases A.mapM Box.ofRow with
  | none => rfl
  | some cs =>
    cases B.mapM Box.ofRow with
    | none => rfl
    | some os =>
      simp only [Option.map_some, List.length_map, List.getElem?_map, Option.some.injEq, Mat.mk.injEq, true_and]
      funext i j
      cases cs[i]? with
      | none => rfl
      | some c =>
        cases os[j]? with
        | none => rfl
        | some o => exact C38_scale_translate hs ht u v c o

/-- **C80** for `iou`: widths may be measured in one unit, heights in another, and the origin may be anywhere
else. The tracker has the same arguments; it makes the same decisions. -/
theorem C80_iou {cfg : Cfg K L (WithTop K) F X} {Ok : F → Prop} (hL : FilterLaws cfg.flt Ok) {s t : K}
    (hs : 0 < s) (ht : 0 < t) (u₀ v₀ : K) (hA : AffineLaws cfg.flt Ok (perAxis s t) (perAxis u₀ v₀))
    {str : L → String} (hdist : cfg.dist = iouDistFn str)
    (hreid : Option.Rel (fun f g => ∀ c d v u,
      (affCorr cfg.flt Ok (perAxis s t) (perAxis u₀ v₀) (fun _ _ => True) Eq).Views cfg.flt c d →
      (affCorr cfg.flt Ok (perAxis s t) (perAxis u₀ v₀) (fun _ _ => True) Eq).Views cfg.flt v u →
      g d u = f c v) cfg.reid cfg.reid)
    {shape : L → Nat × Nat} (hsh : ∀ a b, str a = str b → shape a = shape b)
    {w w' : World K L (WithTop K) F X}
    (h : Parallel (affCorr cfg.flt Ok (perAxis s t) (perAxis u₀ v₀) (fun _ _ => True) Eq) cfg cfg shape w w')
    (dets : Option (List Ref)) (period : Int) {ct ct' : Option (CoordTrans K)}
    (hc : CallOk shape (dets.getD []) ct w.heap)
    (hct : Option.Rel (affCorr cfg.flt Ok (perAxis s t) (perAxis u₀ v₀) (fun _ _ => True) Eq :
      Corr K K L L (WithTop K) (WithTop K) F F X X).Trans ct ct') :
    Alike (Moved cfg.flt (perAxis s t) (perAxis u₀ v₀) id) (update cfg w dets period ct).2
      (update cfg w' dets period ct').2 ∧
    List.Forall₂ (Moved cfg.flt (perAxis s t) (perAxis u₀ v₀) id) (update cfg w dets period ct).1.objs
      (update cfg w' dets period ct').1.objs := by
  refine C80_units hL (fun _ _ e => e.symm) ?_ rfl (fun a b hab => hsh a b ?_) h dets period hc hct
  · refine ⟨?_, ?_, rfl, ?_, ?_, ?_, rfl, .inl rfl, rfl, .inl rfl, affine_filters hL hA _ rfl rfl, ?_, ?_, rfl, rfl,
      rfl, rfl, rfl, rfl⟩
    · rintro a b _ _ rfl rfl; rfl
    · rintro a b _ _ rfl rfl; rfl
    · rintro a _ rfl; rfl
    · rintro a _ rfl; rfl
    · rintro l _ rfl; exact aff_length _ _ _
    · rw [hdist]
      refine .vectorized _ _ _ _ ?_ ?_
      · rintro a b _ _ rfl rfl; rfl
      · intro A A' B B' h1 h2
        rw [iou_rel hs ht u₀ v₀ h1 h2]
        cases iou A B with
        | none => exact .none
        | some M =>
          refine .some fun i j _ _ => ?_
          cases ((M.map fun e => e.map fun x : K => (x : WithTop K)).val i j) with
          | none => exact .none
          | some _ => exact .some rfl
    · revert hreid
      cases cfg.reid with
      | none => exact fun _ => .none
      | some f =>
        rintro (hf | _)
        refine .some fun c d v u h1 h2 => ?_
        rw [hf c d v u h1 h2]
        rcases f c v with _ | _ | _
        · exact .none
        · exact .some .none
        · exact .some (.some rfl)
  · unfold Compat at hab
    rw [hdist] at hab
    exact hab

end iou

/-! #### Points and the distances between them -/

section points
open Finset

/-- the same factor for all coordinates, one shift per axis -/
def shiftAxis (N : Nat) (β : Nat → ℝ) (k : Nat) : ℝ := β (k % N)

/-- distances in other units -/
noncomputable def rescale (c : ℝ) : WithTop ℝ → WithTop ℝ := WithTop.map fun x => |c| * x

theorem mat_aff {c : ℝ} {N : Nat} {β : Nat → ℝ} {p : Pts ℝ} (hN : p.dim = N)
    (hl : p.data.length = p.dim * p.n) {i j : Nat} (hi : i < p.n) (hj : j < N) :
    (affPts (fun _ => c) (shiftAxis N β) p).mat.val i j = c * p.mat.val i j + β j := by
  have hlt : i * p.dim + j < p.data.length := by
    rw [hl, hN, Nat.mul_comm N]
    calc i * N + j < i * N + N := by omega
      _ = (i + 1) * N := by ring
      _ ≤ p.n * N := Nat.mul_le_mul_right _ hi
  have hm : (i * p.dim + j) % N = j := by
    rw [hN, Nat.mul_comm, Nat.mul_add_mod, Nat.mod_eq_of_lt hj]
  simp only [Pts.mat, affPts, aff_get, List.getElem?_eq_getElem hlt, Option.map_some, Option.getD_some, shiftAxis,
    hm]

theorem bidx_lt {a b n i : Nat} (h : bdim a b = some n) (hi : i < n) : bidx a i < a ∧ bidx b i < b := by
  unfold bdim at h
  unfold bidx
  split at h
  · injection h with h
    subst h
    split <;> constructor <;> first | omega | (split <;> omega)
  · split at h
    · injection h with h
      split <;> constructor <;> first | omega | (split <;> omega)
    · split at h
      · injection h with h
        split <;> constructor <;> first | omega | (split <;> omega)
      · cases h

theorem sub_aff {c : ℝ} {N : Nat} {β : Nat → ℝ} {p q : Pts ℝ} (hp : p.dim = N) (hq : q.dim = N)
    (lp : p.data.length = p.dim * p.n) (lq : q.data.length = q.dim * q.n) :
    Option.Rel (fun x y : Mat ℝ => y.rows = x.rows ∧ y.cols = x.cols ∧
      ∀ i < x.rows, ∀ j < x.cols, y.val i j = c * x.val i j)
      (p.mat.sub q.mat)
      ((affPts (fun _ => c) (shiftAxis N β) p).mat.sub (affPts (fun _ => c) (shiftAxis N β) q).mat) := by
  unfold Mat.sub
  have e1 : (affPts (fun _ => c) (shiftAxis N β) p).mat.rows = p.mat.rows := rfl
  have e2 : (affPts (fun _ => c) (shiftAxis N β) q).mat.rows = q.mat.rows := rfl
  have e3 : (affPts (fun _ => c) (shiftAxis N β) p).mat.cols = p.mat.cols := rfl
  have e4 : (affPts (fun _ => c) (shiftAxis N β) q).mat.cols = q.mat.cols := rfl
  have hpc : p.mat.cols = N := hp
  have hqc : q.mat.cols = N := hq
  rw [e1, e2, e3, e4, hpc, hqc]
  have hcol : bdim N N = some N := by simp [bdim]
  rw [hcol]
  cases hr : bdim p.mat.rows q.mat.rows with
  | none => exact .none
  | some n =>
    refine .some ⟨rfl, rfl, fun i hi j hj => ?_⟩
    simp only at hi hj ⊢
    obtain ⟨b1, b2⟩ := bidx_lt hr hi
    obtain ⟨b3, -⟩ := bidx_lt hcol hj
    have b4 : bidx N j = j := by unfold bidx; split <;> omega
    rw [b4, mat_aff hp lp b1 hj, mat_aff hq lq b2 hj]
    ring

theorem sum_sq_mul {n : Nat} {f g : Nat → ℝ} {c : ℝ} (h : ∀ j < n, g j = c * f j) :
    ∑ j ∈ range n, g j ^ 2 = c ^ 2 * ∑ j ∈ range n, f j ^ 2 := by
  rw [mul_sum]
  refine sum_congr rfl fun j hj => ?_
  rw [h j (mem_range.mp hj)]
  ring

/-- a distance of points that is rescaled when the points are -/
def Scales (f : Pts ℝ → Pts ℝ → Option (Option ℝ)) : Prop :=
  ∀ (c : ℝ) (N : Nat) (β : Nat → ℝ) (p q : Pts ℝ), p.dim = N → q.dim = N → p.data.length = p.dim * p.n →
    q.data.length = q.dim * q.n →
    f (affPts (fun _ => c) (shiftAxis N β) p) (affPts (fun _ => c) (shiftAxis N β) q) =
      (f p q).map (Option.map fun x => |c| * x)

theorem meanOf_mul {n : Nat} {f g : Nat → ℝ} {c : ℝ} (h : ∀ i < n, g i = c * f i) :
    meanOf n g = (meanOf n f).map fun x => c * x := by
  unfold meanOf
  split
  · rfl
  · rw [Option.map_some, ← mul_div_assoc, mul_sum]
    congr 2
    exact sum_congr rfl fun i hi => h i (mem_range.mp hi)

/-- **C80**: `frobenius`, `mean_euclidean` and `mean_manhattan` are multiplied by the factor, and do not depend
on the origin -/
theorem C80_scales : Scales frobenius ∧ Scales meanEuclidean ∧ Scales meanManhattan := by
  refine ⟨?_, ?_, ?_⟩
  all_goals
    intro c N β p q hp hq lp lq
    have h := sub_aff (c := c) (β := β) hp hq lp lq
    first | unfold frobenius | unfold meanEuclidean | unfold meanManhattan
    revert h
    generalize p.mat.sub q.mat = A
    generalize (Mat.sub _ _ : Option (Mat ℝ)) = B
    rintro (⟨hr, hc, hv⟩ | _)
    swap
    · rfl
    rename_i x y
    simp only [Option.map_some]
  · rw [hr, hc]
    congr 2
    rw [show ∑ i ∈ range x.rows, ∑ j ∈ range x.cols, y.val i j ^ 2 =
      c ^ 2 * ∑ i ∈ range x.rows, ∑ j ∈ range x.cols, x.val i j ^ 2 by
        rw [mul_sum]
        exact sum_congr rfl fun i hi => sum_sq_mul (hv i (mem_range.mp hi)),
      Real.sqrt_mul (sq_nonneg c), Real.sqrt_sq_eq_abs]
  · rw [hr]
    congr 1
    refine meanOf_mul fun i hi => ?_
    unfold Mat.rowNorm
    rw [hc, sum_sq_mul (hv i hi), Real.sqrt_mul (sq_nonneg c), Real.sqrt_sq_eq_abs]
  · rw [hr]
    congr 1
    refine meanOf_mul fun i hi => ?_
    unfold Mat.rowNorm1
    rw [hc, mul_sum]
    refine sum_congr rfl fun j hj => ?_
    rw [hv i hi j (mem_range.mp hj), abs_mul]

/-- the tracker with all thresholds multiplied by `|c|` -/
noncomputable def rescaled (c : ℝ) (cfg : Cfg ℝ L (WithTop ℝ) F X) : Cfg ℝ L (WithTop ℝ) F X :=
  { cfg with
    thr := rescale c cfg.thr
    fill := rescale c cfg.thr + 1
    reidThr := rescale c cfg.reidThr
    reidFill := rescale c cfg.reidThr + 1 }

theorem rescale_strictMono {c : ℝ} (h0 : c ≠ 0) : StrictMono (rescale c) :=
  WithTop.strictMono_map_iff.mpr fun _ _ h => mul_lt_mul_of_pos_left h (abs_pos.mpr h0)

theorem not_succ_lt (x : WithTop ℝ) : ¬ x + 1 < x := by
  cases x with
  | top => simp
  | coe x =>
    have : ((x : WithTop ℝ) + 1) = ((x + 1 : ℝ) : WithTop ℝ) := rfl
    rw [this, WithTop.coe_lt_coe]
    linarith

/-- **C80** for the distances between points: all coordinates are multiplied by `c ≠ 0` (negative: the image is
mirrored at the origin) and moved by one vector. A tracker whose thresholds are multiplied by `|c|` makes the same
decisions. -/
theorem C80_points [DecidableEq L] {cfg : Cfg ℝ L (WithTop ℝ) F X} {Ok : F → Prop} (hL : FilterLaws cfg.flt Ok)
    {c : ℝ} (h0 : c ≠ 0) {N : Nat} (β : Nat → ℝ) (hA : AffineLaws cfg.flt Ok (fun _ => c) (shiftAxis N β))
    {f : Pts ℝ → Pts ℝ → Option (Option ℝ)} (hf : Scales f) (hdist : cfg.dist = ptsDistance cfg.flt f)
    (hreid : Option.Rel (fun f g => ∀ k d v u,
      (affCorr cfg.flt Ok (fun _ => c) (shiftAxis N β) (fun _ dim => dim = N)
        (fun x y => y = rescale c x)).Views cfg.flt k d →
      (affCorr cfg.flt Ok (fun _ => c) (shiftAxis N β) (fun _ dim => dim = N)
        (fun x y => y = rescale c x)).Views cfg.flt v u →
      g d u = (f k v).map (Option.map (rescale c))) cfg.reid cfg.reid)
    (hfill : cfg.fill = cfg.thr + 1) (hrfill : cfg.reidFill = cfg.reidThr + 1) {shape : L → Nat × Nat}
    {w w' : World ℝ L (WithTop ℝ) F X}
    (h : Parallel (affCorr cfg.flt Ok (fun _ => c) (shiftAxis N β) (fun _ dim => dim = N)
      (fun x y => y = rescale c x)) cfg (rescaled c cfg) shape w w')
    (dets : Option (List Ref)) (period : Int) {ct ct' : Option (CoordTrans ℝ)}
    (hc : CallOk shape (dets.getD []) ct w.heap)
    (hct : Option.Rel (affCorr cfg.flt Ok (fun _ => c) (shiftAxis N β) (fun _ dim => dim = N)
      (fun x y => y = rescale c x) : Corr ℝ ℝ L L (WithTop ℝ) (WithTop ℝ) F F X X).Trans ct ct') :
    Alike (Moved cfg.flt (fun _ => c) (shiftAxis N β) (rescale c)) (update cfg w dets period ct).2
      (update (rescaled c cfg) w' dets period ct').2 ∧
    List.Forall₂ (Moved cfg.flt (fun _ => c) (shiftAxis N β) (rescale c)) (update cfg w dets period ct).1.objs
      (update (rescaled c cfg) w' dets period ct').1.objs := by
  have hm := rescale_strictMono h0
  have hF := affine_filters (L := L) (L' := L) (X := X) (X' := X) hL hA
    (affCorr cfg.flt Ok (fun _ => c) (shiftAxis N β) (fun _ dim => dim = N) (fun x y => y = rescale c x)) rfl rfl
  refine C80_units (cfg' := rescaled c cfg) hL (fun _ _ e => e) ?_ rfl (fun a b hab => ?_) h dets period hc hct
  · refine ⟨?_, ?_, rfl, ?_, ?_, ?_, rfl, .inr ⟨?_, not_succ_lt _⟩, rfl, .inr ⟨?_, not_succ_lt _⟩, hF, ?_, ?_,
      rfl, rfl, rfl, rfl, rfl, rfl⟩
    · rintro a b _ _ rfl rfl; rfl
    · rintro a b _ _ rfl rfl; exact hm.lt_iff_lt.symm
    · rintro a _ rfl
      have e0 : rescale c 0 = 0 := by
        show ((|c| * 0 : ℝ) : WithTop ℝ) = 0
        rw [mul_zero]; rfl
      conv_rhs => rw [← e0]
      exact hm.injective.eq_iff.symm
    · rintro a _ rfl; rfl
    · rintro l _ rfl; exact aff_length _ _ _
    · rw [hfill]; exact not_succ_lt _
    · rw [hrfill]; exact not_succ_lt _
    · show Corr.DistFns _ _ cfg.dist cfg.dist
      rw [hdist]
      refine .scalar _ _ fun _ d e v u hde hvu => ?_
      have h1 := dets_points ⟨rfl, rfl⟩ hde
      have h2 := estimate_rel ⟨rfl, rfl⟩ hF hvu.obj hvu.sensors
      rw [affCorr_eq h1, affCorr_eq h2, hf c N β _ _ h1.shape h2.shape h1.len h2.len]
      rcases f d.points (v.obj.estimate cfg.flt) with _ | _ | x
      · exact .none
      · exact .some .none
      · exact .some (.some rfl)
    · show Option.Rel _ cfg.reid cfg.reid
      revert hreid
      cases cfg.reid with
      | none => exact fun _ => .none
      | some f =>
        rintro (hf | _)
        refine .some fun k d v u h1 h2 => ?_
        rw [hf k d v u h1 h2]
        rcases f k v with _ | _ | _
        · exact .none
        · exact .some .none
        · exact .some (.some rfl)
  · unfold Compat at hab
    rw [hdist] at hab
    simp only [ptsDistance] at hab
    rw [hab]

end points

/-! ### C81, C82: other labels, other distances -/

section rel
variable [Zero K] [LinearOrder K] [LinearOrder D] [OrderTop D] [Zero D] [DecidableEq L]
  [LinearOrder D'] [OrderTop D'] [Zero D'] [DecidableEq L']

theorem relCorr_eq {Ok : F → Prop} {label : L → L' → Prop} {dist : D → D' → Prop} {p q : Pts K}
    (h : (relCorr Ok label dist : Corr K K L L' D D' F F X X).Points p q) : q = p := by
  obtain ⟨n, dim, d⟩ := p
  obtain ⟨n', dim', d'⟩ := q
  have h1 := h.n
  have h2 := h.dim
  have h3 : d = d' := h.vec
  simp only at h1 h2
  subst h1 h2 h3
  rfl

theorem relCorr_filters {fo : FilterOps K F} {Ok : F → Prop} (hL : FilterLaws fo Ok) (label : L → L' → Prop)
    (dist : D → D' → Prop) : (relCorr Ok label dist : Corr K K L L' D D' F F X X).Filters fo fo where
  create := by
    intro p q h
    rw [relCorr_eq h]
    exact ⟨(hL.create p h.len).1, rfl⟩
  dimZ := by rintro f _ ⟨_, rfl⟩; rfl
  predict := by
    rintro f _ ⟨ho, rfl⟩
    obtain ⟨p1, p2, _⟩ := hL.predict _ ho
    exact ⟨⟨p1, rfl⟩, p2⟩
  update := by
    rintro f _ z _ mask ⟨ho, rfl⟩ rfl hz hm
    obtain ⟨p1, p2⟩ := hL.update _ z mask ho hz hm
    exact ⟨⟨p1, rfl⟩, p2⟩
  positions := by
    rintro f _ ⟨ho, rfl⟩
    refine ⟨rfl, ?_⟩
    rw [List.length_take, hL.len _ ho]
    omega
  setX := by
    rintro _ f z _ m1 m2 ⟨ho, rfl⟩ rfl hz h1 h2
    have hx := hL.len _ ho
    obtain ⟨s1, s2, s3⟩ := hL.setX f (maskAssign m1 ((fo.getX f).take (fo.dimZ f)) z ++
        maskAssign m2 ((fo.getX f).drop (fo.dimZ f)) (List.replicate (fo.dimZ f) 0)) ho (by
      simp [hx]; omega)
    exact ⟨⟨s1, rfl⟩, s2⟩

theorem relabelled_of_objs {fo : FilterOps K F} {Ok : F → Prop} (hL : FilterLaws fo Ok) {label : L → L' → Prop}
    {scale : D → D'} {dist : D → D' → Prop} (hd : ∀ x y, dist x y → y = scale x) {o : Obj K L D F}
    {p : Obj K L' D' F} (ho : fo.dimZ o.filter = o.dimZ)
    (h : (relCorr Ok label dist : Corr K K L L' D D' F F X X).Objs o p) : Relabelled fo label scale o p where
  initId := h.initId
  id := h.id
  globalId := h.globalId
  hitCounter := h.hitCounter
  age := h.age
  label := h.label
  pointHits := h.pointHits
  lastDet := h.lastDet
  past := h.past
  lastDistance := by
    have := h.lastDistance
    revert this
    cases o.lastDistance <;> cases p.lastDistance <;> intro this <;> cases this
    · rfl
    · rename_i hxy
      rw [hd _ _ hxy]; rfl
  filter := h.filter.2
  estimate := relCorr_eq (estimate_rel ⟨rfl, rfl⟩ (relCorr_filters hL label dist) h ho)

/-- **C81**: the labels are renamed one to one (they may even become values of another type). A tracker whose
distances do not depend on the names makes the same decisions. -/
theorem C81_rename {cfg : Cfg K L D F X} {Ok : F → Prop} (hL : FilterLaws cfg.flt Ok) {ρ : L → L'}
    (hρ : Function.Injective ρ) {dist' : DistFn K L' D F X}
    (hdist : (relCorr Ok (fun a x => x = ρ a) Eq : Corr K K L L' D D F F X X).DistFns cfg.flt cfg.dist dist')
    {reid' : Option (ObjView K L' D F X → ObjView K L' D F X → Option (Option D))}
    (hreid : Option.Rel (fun f g => ∀ c d v u,
      (relCorr Ok (fun a x => x = ρ a) Eq : Corr K K L L' D D F F X X).Views cfg.flt c d →
      (relCorr Ok (fun a x => x = ρ a) Eq : Corr K K L L' D D F F X X).Views cfg.flt v u →
      g d u = f c v) cfg.reid reid')
    {shape : L → Nat × Nat} (hs : ∀ a b, Compat cfg a b → shape a = shape b)
    {w : World K L D F X} {w' : World K L' D F X}
    (h : Parallel (relCorr Ok (fun a x => x = ρ a) Eq) cfg
      (withDist cfg dist' cfg.thr cfg.fill reid' cfg.reidThr cfg.reidFill) shape w w')
    (dets : Option (List Ref)) (period : Int) (ct : Option (CoordTrans K))
    (hc : CallOk shape (dets.getD []) ct w.heap)
    (hct : ∀ c, ct = some c → ∀ p, p.data.length = p.dim * p.n →
      (c.relToAbs p).data.length = (c.relToAbs p).dim * (c.relToAbs p).n ∧
      (c.absToRel p).data.length = (c.absToRel p).dim * (c.absToRel p).n) :
    Alike (Relabelled cfg.flt (fun a x => x = ρ a) id) (update cfg w dets period ct).2
      (update (withDist cfg dist' cfg.thr cfg.fill reid' cfg.reidThr cfg.reidFill) w' dets period ct).2 ∧
    List.Forall₂ (Relabelled cfg.flt (fun a x => x = ρ a) id) (update cfg w dets period ct).1.objs
      (update (withDist cfg dist' cfg.thr cfg.fill reid' cfg.reidThr cfg.reidFill) w' dets period ct).1.objs := by
  refine parallel_returned hL ⟨rfl, rfl⟩ ?_ hs h dets period hc ?_ fun _ _ hop ho =>
    relabelled_of_objs hL (fun _ _ e => e.symm) ho hop
  · refine ⟨?_, ?_, rfl, ?_, ?_, ?_, rfl, .inl rfl, rfl, .inl rfl, relCorr_filters hL _ _, hdist, ?_, rfl, rfl,
      rfl, rfl, rfl, rfl⟩
    · rintro a b _ _ rfl rfl; exact hρ.eq_iff.symm
    · rintro a b _ _ rfl rfl; rfl
    · rintro a _ rfl; rfl
    · rintro a _ rfl; rfl
    · rintro l _ rfl; rfl
    · show Option.Rel _ cfg.reid reid'
      revert hreid
      cases cfg.reid <;> cases reid' <;> intro hreid <;> cases hreid
      · exact .none
      · rename_i f g hf
        refine .some fun k d v u h1 h2 => ?_
        rw [hf k d v u h1 h2]
        rcases f k v with _ | _ | _
        · exact .none
        · exact .some .none
        · exact .some (.some rfl)
  · cases ct with
    | none => exact .none
    | some c =>
      refine .some ⟨fun p q hpq => ?_, fun p q hpq => ?_⟩
      · rw [relCorr_eq hpq]
        exact ⟨trivial, rfl, rfl, (hct c rfl p hpq.len).1, rfl⟩
      · rw [relCorr_eq hpq]
        exact ⟨trivial, rfl, rfl, (hct c rfl p hpq.len).2, rfl⟩

/-- **C82**: distances and thresholds are transformed by a function that is strictly increasing on all values that
occur (those in `S`), keeps infinity, and is 0 exactly at 0. The tracker makes the same decisions: only the order of
the distances and their comparison with the threshold count. -/
theorem C82_monotone {cfg : Cfg K L D F X} {Ok : F → Prop} (hL : FilterLaws cfg.flt Ok) {φ : D → D'} {S : Set D}
    (hφ : StrictMonoOn φ S) (htop : ⊤ ∈ S ∧ φ ⊤ = ⊤) (hzero : ∀ x ∈ S, x = 0 ↔ φ x = 0)
    (hthr : cfg.thr ∈ S) (hrthr : cfg.reidThr ∈ S) {fill' rfill' : D'}
    (hfill : ¬ cfg.fill < cfg.thr ∧ ¬ fill' < φ cfg.thr)
    (hrfill : ¬ cfg.reidFill < cfg.reidThr ∧ ¬ rfill' < φ cfg.reidThr)
    {dist' : DistFn K L D' F X}
    (hdist : (relCorr Ok Eq (fun a x => a ∈ S ∧ x = φ a) : Corr K K L L D D' F F X X).DistFns cfg.flt cfg.dist dist')
    {reid' : Option (ObjView K L D' F X → ObjView K L D' F X → Option (Option D'))}
    (hreid : Option.Rel (fun f g => ∀ c d v u,
      (relCorr Ok Eq (fun a x => a ∈ S ∧ x = φ a) : Corr K K L L D D' F F X X).Views cfg.flt c d →
      (relCorr Ok Eq (fun a x => a ∈ S ∧ x = φ a) : Corr K K L L D D' F F X X).Views cfg.flt v u →
      g d u = (f c v).map (Option.map φ) ∧ ∀ x, f c v = some (some x) → x ∈ S) cfg.reid reid')
    {shape : L → Nat × Nat} (hs : ∀ a b, Compat cfg a b → shape a = shape b)
    {w : World K L D F X} {w' : World K L D' F X}
    (h : Parallel (relCorr Ok Eq (fun a x => a ∈ S ∧ x = φ a)) cfg
      (withDist cfg dist' (φ cfg.thr) fill' reid' (φ cfg.reidThr) rfill') shape w w')
    (dets : Option (List Ref)) (period : Int) (ct : Option (CoordTrans K))
    (hc : CallOk shape (dets.getD []) ct w.heap)
    (hct : ∀ c, ct = some c → ∀ p, p.data.length = p.dim * p.n →
      (c.relToAbs p).data.length = (c.relToAbs p).dim * (c.relToAbs p).n ∧
      (c.absToRel p).data.length = (c.absToRel p).dim * (c.absToRel p).n) :
    Alike (Relabelled cfg.flt Eq φ) (update cfg w dets period ct).2
      (update (withDist cfg dist' (φ cfg.thr) fill' reid' (φ cfg.reidThr) rfill') w' dets period ct).2 ∧
    List.Forall₂ (Relabelled cfg.flt Eq φ) (update cfg w dets period ct).1.objs
      (update (withDist cfg dist' (φ cfg.thr) fill' reid' (φ cfg.reidThr) rfill') w' dets period ct).1.objs := by
  refine parallel_returned hL ⟨rfl, rfl⟩ ?_ hs h dets period hc ?_ fun _ _ hop ho =>
    relabelled_of_objs hL (fun _ _ e => e.2) ho hop
  · refine ⟨?_, ?_, ⟨htop.1, htop.2.symm⟩, ?_, ?_, ?_, ⟨hthr, rfl⟩, .inr hfill, ⟨hrthr, rfl⟩, .inr hrfill,
      relCorr_filters hL _ _, hdist, ?_, rfl, rfl, rfl, rfl, rfl, rfl⟩
    · rintro a b _ _ rfl rfl; rfl
    · rintro a b _ _ ⟨ha, rfl⟩ ⟨hb, rfl⟩; exact (hφ.lt_iff_lt ha hb).symm
    · rintro a _ ⟨ha, rfl⟩; exact hzero a ha
    · rintro a _ rfl; rfl
    · rintro l _ rfl; rfl
    · show Option.Rel _ cfg.reid reid'
      revert hreid
      cases cfg.reid <;> cases reid' <;> intro hreid <;> cases hreid
      · exact .none
      · rename_i f g hf
        refine .some fun k d v u h1 h2 => ?_
        obtain ⟨e1, e2⟩ := hf k d v u h1 h2
        rw [e1]
        rcases hfv : f k v with _ | _ | x
        · exact .none
        · exact .some .none
        · exact .some (.some ⟨e2 x hfv, rfl⟩)
  · cases ct with
    | none => exact .none
    | some c =>
      refine .some ⟨fun p q hpq => ?_, fun p q hpq => ?_⟩
      · rw [relCorr_eq hpq]
        exact ⟨trivial, rfl, rfl, (hct c rfl p hpq.len).1, rfl⟩
      · rw [relCorr_eq hpq]
        exact ⟨trivial, rfl, rfl, (hct c rfl p hpq.len).2, rfl⟩

/-- distances of points and estimates do not depend on labels -/
theorem C81_points_distances {fo : FilterOps K F} {Ok : F → Prop} (hL : FilterLaws fo Ok) (ρ : L → L')
    (f : Pts K → Pts K → Option (Option D)) :
    (relCorr Ok (fun a x => x = ρ a) Eq : Corr K K L L' D D F F X X).DistFns fo (ofPoints fo f) (ofPoints fo f) := by
  refine .scalar _ _ fun _ d e v u hde hvu => ?_
  rw [relCorr_eq (dets_points ⟨rfl, rfl⟩ hde), relCorr_eq (estimate_rel ⟨rfl, rfl⟩ (relCorr_filters hL _ _) hvu.obj hvu.sensors)]
  rcases f d.points (v.obj.estimate fo) with _ | _ | x
  · exact .none
  · exact .some .none
  · exact .some (.some rfl)

/-- vectorized distances do not depend on labels, if renaming changes nothing about which labels have the same
string -/
theorem C81_vectorized_distances {fo : FilterOps K F} {Ok : F → Prop} (ρ : L → L') {str : L → String}
    {str' : L' → String} (hstr : ∀ a b, str a = str b ↔ str' (ρ a) = str' (ρ b))
    (f : List (List K) → List (List K) → Option (Mat (Option D))) :
    (relCorr Ok (fun a x => x = ρ a) Eq : Corr K K L L' D D F F X X).DistFns fo (.vectorized str f)
      (.vectorized str' f) := by
  refine .vectorized _ _ _ _ ?_ ?_
  · rintro a b _ _ rfl rfl; exact hstr a b
  · intro A A' B B' h1 h2
    have e1 : A = A' := List.forall₂_eq_eq_eq ▸ h1
    have e2 : B = B' := List.forall₂_eq_eq_eq ▸ h2
    subst e1 e2
    cases f A B with
    | none => exact .none
    | some M =>
      refine .some fun i j _ _ => ?_
      cases M.val i j with
      | none => exact .none
      | some _ => exact .some rfl

/-- a transformed distance of points and estimates -/
theorem C82_points_distances {fo : FilterOps K F} {Ok : F → Prop} (hL : FilterLaws fo Ok) {φ : D → D'} {S : Set D}
    {f : Pts K → Pts K → Option (Option D)} (hf : ∀ p q x, f p q = some (some x) → x ∈ S) :
    (relCorr Ok Eq (fun a x => a ∈ S ∧ x = φ a) : Corr K K L L D D' F F X X).DistFns fo (ofPoints fo f)
      (ofPoints fo fun p q => (f p q).map (Option.map φ)) := by
  refine .scalar _ _ fun _ d e v u hde hvu => ?_
  rw [relCorr_eq (dets_points ⟨rfl, rfl⟩ hde), relCorr_eq (estimate_rel ⟨rfl, rfl⟩ (relCorr_filters hL _ _) hvu.obj hvu.sensors)]
  show Corr.Dist _ (f d.points (v.obj.estimate fo)) ((f d.points (v.obj.estimate fo)).map (Option.map φ))
  rcases h : f d.points (v.obj.estimate fo) with _ | _ | x
  · exact .none
  · exact .some .none
  · exact .some (.some ⟨hf _ _ _ h, rfl⟩)

end rel

/-! ### Examples -/

section examples

open Norfair.Toy

/-- several calls with the given detections -/
def runs [Zero K] [LinearOrder K] [LinearOrder D] [OrderTop D] [Zero D] [DecidableEq L] (c : Cfg K L D F X)
    (w : World K L D F X) : List (List Ref) → World K L D F X
  | [] => w
  | l :: ls => runs c (update c w (some l) 1 none).1 ls

theorem runs_parallel {K' L' D' F' X' : Type} [Zero K] [LinearOrder K] [LinearOrder D] [OrderTop D] [Zero D]
    [DecidableEq L] [LinearOrder K'] [Zero K'] [LinearOrder D'] [OrderTop D'] [Zero D'] [DecidableEq L']
    {R : Corr K K' L L' D D' F F' X X'} {cfg : Cfg K L D F X} {cfg' : Cfg K' L' D' F' X'} {shape : L → Nat × Nat}
    (ls : List (List Ref)) : ∀ (w : World K L D F X) (w' : World K' L' D' F' X'), Inv w →
      (∀ r, DetOk shape (w.heap r)) → Parallel R cfg cfg' shape w w' →
      Parallel R cfg cfg' shape (runs cfg w ls) (runs cfg' w' ls) ∧ ∀ r, DetOk shape ((runs cfg w ls).heap r) := by
  induction ls with
  | nil => exact fun _ _ _ hw h => ⟨h, hw⟩
  | cons l ls ih =>
    intro w w' hI hw h
    refine ih _ _ (update_inv (cfg := cfg) hI _ _ _).1 ?_
      (Parallel.call (some l) 1 h ⟨(by intro _ h; cases h), fun r _ => hw r⟩ .none)
    refine ((update_micros cfg w hI.nodup (some l) 1 none).objInv (Q := fun _ _ => True)
      (H := fun h => ∀ r, DetOk shape (h r)) ?_ hw (fun _ _ => trivial)).1
    exact ⟨fun h h' ha hh r => by obtain ⟨a, e⟩ := (ha r).1; rw [e]; exact detOk_age (hh r) a,
      (by intro _ _ _ h; cases h), fun _ _ _ _ _ => trivial, fun _ _ _ _ _ _ _ => trivial,
      fun _ _ _ _ => trivial, fun _ _ _ _ _ => trivial, fun _ _ _ _ _ _ _ _ _ _ _ _ => trivial,
      fun _ _ _ _ _ _ _ _ _ _ => trivial, fun _ _ _ _ _ _ _ => trivial, fun _ _ _ _ => trivial⟩

/-- a detection of the given points of the plane -/
def planar (data : List K) (label : L) : Det K L Unit := ⟨⟨2, 2, data⟩, none, label, (), ⟨2, 2, data⟩, none⟩

theorem planar_ok {data : List K} (h : data.length = 4) (label : L) :
    DetOk (fun _ : L => (2, 2)) (planar data label) := ⟨rfl, rfl, h, by intro s hs; cases hs⟩

/-- box `r` has its corner at `(r, r)` -/
def boxes (r : Ref) : List ℚ := [r, r, r + 4, r + 5]

def boxHeap : Ref → Det ℚ Nat Unit := fun r => planar (boxes r) 0

/-- twice as wide, three times as high, moved by `(10, -5)` -/
def boxHeap' : Ref → Det ℚ Nat Unit := fun r => planar (aff (perAxis 2 3) (perAxis 10 (-5)) (boxes r)) 0

def unitsCfg : Cfg ℚ Nat (WithTop ℚ) (OKF ℚ) Unit where
  dist := iouDistFn fun _ => ""
  thr := ((3 / 4 : ℚ) : WithTop ℚ)
  fill := ((7 / 4 : ℚ) : WithTop ℚ)
  hitCounterMax := 4
  initDelay := 1
  pwMax := 4
  detThr := 0
  flt := okfOps okfDefaults
  pastLen := 2
  reid := none
  reidThr := 0
  reidFill := 1
  reidMax := none

/-- C80: three calls with boxes, and with the same boxes in other units -/
example : Alike (Moved unitsCfg.flt (perAxis 2 3) (perAxis 10 (-5)) id)
    (update unitsCfg (runs unitsCfg ⟨boxHeap, 0, 0, 0, []⟩ [[0, 50], [1, 51]]) (some [2]) 1 none).2
    (update unitsCfg (runs unitsCfg ⟨boxHeap', 0, 0, 0, []⟩ [[0, 50], [1, 51]]) (some [2]) 1 none).2 := by
  have hp := runs_parallel (cfg := unitsCfg) (cfg' := unitsCfg) (shape := fun _ => (2, 2))
    (R := affCorr unitsCfg.flt OKF.Ok (perAxis 2 3) (perAxis 10 (-5)) (fun _ _ => True) Eq)
    [[0, 50], [1, 51]] ⟨boxHeap, 0, 0, 0, []⟩ ⟨boxHeap', 0, 0, 0, []⟩
    (Inv.initial ⟨rfl, rfl, rfl⟩) (fun r => planar_ok rfl _)
    (.start ⟨rfl, rfl, rfl⟩ ⟨rfl, rfl, rfl⟩
      (fun r => ⟨⟨trivial, rfl, rfl, rfl, rfl⟩, .none, rfl, rfl, ⟨trivial, rfl, rfl, rfl, rfl⟩, rfl⟩) rfl)
  exact (C80_iou (okf_laws okfDefaults) (by norm_num) (by norm_num) 10 (-5) (okf_affine okfDefaults _ _)
    (str := fun _ => "") rfl .none (fun _ _ _ => rfl) hp.1 (some [2]) 1
    ⟨(by intro _ h; cases h), fun r _ => hp.2 r⟩ .none).1

/-- the objects and their estimates in that example -/
example : (update unitsCfg (runs unitsCfg ⟨boxHeap, 0, 0, 0, []⟩ [[0, 50], [1, 51]]) (some [2]) 1 none).1.objs.map
      (fun o => (o.id, o.hitCounter, decide ((o.estimate unitsCfg.flt).data.length = 4))) =
        [(some 1, 3, true), (some 2, 1, true)] ∧
    (update unitsCfg (runs unitsCfg ⟨boxHeap', 0, 0, 0, []⟩ [[0, 50], [1, 51]]) (some [2]) 1 none).1.objs.map
      (fun o => (o.estimate unitsCfg.flt).data) =
    (update unitsCfg (runs unitsCfg ⟨boxHeap, 0, 0, 0, []⟩ [[0, 50], [1, 51]]) (some [2]) 1 none).1.objs.map
      (fun o => aff (perAxis 2 3) (perAxis 10 (-5)) (o.estimate unitsCfg.flt).data) := by decide +kernel

/-- without rescaling the threshold: distance 3 is below 4, distance 6 is not -/
example : (run { cfg with thr := 4 } w0 [[0], [3]]).objs.length = 1 ∧
    (run { cfg with thr := 4 } w0 [[0], [6]]).objs.length = 2 := by decide +kernel

/-- points at `(r, 0)` and `(r, 1)` -/
noncomputable def ptsHeap : Ref → Det ℝ Nat Unit := fun r => planar [(r : ℝ), 0, r, 1] 0

/-- mirrored, three times as large, moved by `(7, 8)` -/
noncomputable def ptsHeap' : Ref → Det ℝ Nat Unit :=
  fun r => planar (aff (fun _ => -3) (shiftAxis 2 fun j => if j = 0 then 7 else 8) [(r : ℝ), 0, r, 1]) 0

noncomputable def ptsCfg : Cfg ℝ Nat (WithTop ℝ) (NoFilter ℝ) Unit where
  dist := ptsDistance noFilterOps meanEuclidean
  thr := ((5 : ℝ) : WithTop ℝ)
  fill := ((5 : ℝ) : WithTop ℝ) + 1
  hitCounterMax := 4
  initDelay := 1
  pwMax := 4
  detThr := 0
  flt := noFilterOps
  pastLen := 2
  reid := none
  reidThr := 0
  reidFill := 0 + 1
  reidMax := none

/-- C80: points, mirrored and enlarged -/
example (ls : List (List Ref)) (l : List Ref) :
    Alike (Moved ptsCfg.flt (fun _ => -3) (shiftAxis 2 fun j => if j = 0 then 7 else 8) (rescale (-3)))
      (update ptsCfg (runs ptsCfg ⟨ptsHeap, 0, 0, 0, []⟩ ls) (some l) 1 none).2
      (update (rescaled (-3) ptsCfg) (runs (rescaled (-3) ptsCfg) ⟨ptsHeap', 0, 0, 0, []⟩ ls) (some l) 1 none).2 := by
  have hp := runs_parallel (cfg := ptsCfg) (cfg' := rescaled (-3) ptsCfg) (shape := fun _ => (2, 2))
    (R := affCorr ptsCfg.flt NoFilter.Ok (fun _ => -3) (shiftAxis 2 fun j => if j = 0 then 7 else 8)
      (fun _ dim => dim = 2) (fun x y => y = rescale (-3) x))
    ls ⟨ptsHeap, 0, 0, 0, []⟩ ⟨ptsHeap', 0, 0, 0, []⟩
    (Inv.initial ⟨rfl, rfl, rfl⟩) (fun r => planar_ok rfl _)
    (.start ⟨rfl, rfl, rfl⟩ ⟨rfl, rfl, rfl⟩
      (fun r => ⟨⟨rfl, rfl, rfl, rfl, rfl⟩, .none, rfl, rfl, ⟨rfl, rfl, rfl, rfl, rfl⟩, rfl⟩) rfl)
  exact (C80_points (cfg := ptsCfg) noFilter_laws (by norm_num) _ (noFilter_affine _ _) C80_scales.2.1 rfl .none rfl rfl
    hp.1 (some l) 1 ⟨(by intro _ h; cases h), fun r _ => hp.2 r⟩ .none).1

/-- absolute difference of first coordinates -/
def absDiff (p q : Pts Int) : Option (Option (WithTop Nat)) :=
  match p.data, q.data with
  | a :: _, b :: _ => some (some ((a - b).natAbs : Nat))
  | _, _ => none

def diffCfg : TCfg := { cfg with dist := ofPoints noFilterOps absDiff }

theorem heap_all_ok : ∀ r, DetOk (fun _ : Nat => (1, 1)) (heap r) :=
  fun _ => ⟨rfl, rfl, rfl, by intro s hs; cases hs⟩

/-- the detections of the example with strings as labels -/
def heapS : Ref → Det Int String Unit := fun r =>
  ⟨(heap r).points, none, if (heap r).label = 0 then "person" else String.ofList (List.replicate (heap r).label 'x'),
    (), (heap r).absPoints, none⟩

def names (n : Nat) : String := if n = 0 then "person" else String.ofList (List.replicate n 'x')

theorem names_injective : Function.Injective names := by
  intro a b h
  unfold names at h
  have hx : ∀ n, "person" ≠ String.ofList (List.replicate n 'x') := by
    intro n hn
    have h2 : "person".toList = List.replicate n 'x' := by rw [hn, String.toList_ofList]
    have : 'p' ∈ List.replicate n 'x' := by rw [← h2]; decide
    simp at this
  split at h <;> split at h
  · omega
  · exact absurd h (hx _)
  · exact absurd h.symm (hx _)
  · have h2 := congrArg String.toList h
    rw [String.toList_ofList, String.toList_ofList] at h2
    simpa using congrArg List.length h2

/-- C81: labels 0, 1 or "person", "x" -/
example (ls : List (List Ref)) (l : List Ref) :
    Alike (Relabelled noFilterOps (fun a x => x = names a) id)
      (update diffCfg (runs diffCfg w0 ls) (some l) 1 none).2
      (update (withDist diffCfg (ofPoints noFilterOps absDiff) 10 11 none 0 1)
        (runs (withDist diffCfg (ofPoints noFilterOps absDiff) 10 11 none 0 1) ⟨heapS, 0, 0, 0, []⟩ ls) (some l) 1 none).2 := by
  have hp := runs_parallel (cfg := diffCfg) (cfg' := withDist diffCfg (ofPoints noFilterOps absDiff) 10 11 none 0 1)
    (shape := fun _ => (1, 1)) (R := relCorr NoFilter.Ok (fun a x => x = names a) Eq)
    ls w0 ⟨heapS, 0, 0, 0, []⟩ (Inv.initial w0_initial) heap_all_ok
    (.start w0_initial ⟨rfl, rfl, rfl⟩
      (fun r => ⟨⟨trivial, rfl, rfl, rfl, rfl⟩, .none, rfl, rfl, ⟨trivial, rfl, rfl, rfl, rfl⟩, rfl⟩) rfl)
  exact (C81_rename (cfg := diffCfg) noFilter_laws names_injective (C81_points_distances noFilter_laws _ _) .none
    (fun _ _ _ => rfl) hp.1 (some l) 1 none ⟨(by intro _ h; cases h), fun r _ => hp.2 r⟩
    (by intro _ h; cases h)).1

/-- two labels that become one: a detection of the other label is matched -/
example : (run cfg w0 [[0], [1000]]).objs.length = 2 ∧
    (run { cfg with thr := 2000, fill := 2001 } w0 [[0], [1000]]).objs.length = 2 ∧
    (run { cfg with thr := 2000, fill := 2001 } { w0 with heap := fun r => det r 0 } [[0], [1000]]).objs.length = 1 := by
  decide +kernel

/-- C82: squared distances, squared threshold -/
example (ls : List (List Ref)) (l : List Ref) :
    Alike (Relabelled noFilterOps Eq (WithTop.map (· ^ 2)))
      (update diffCfg (runs diffCfg w0 ls) (some l) 1 none).2
      (update (withDist diffCfg (ofPoints noFilterOps fun p q => (absDiff p q).map (Option.map (WithTop.map (· ^ 2))))
          (WithTop.map (· ^ 2) (10 : WithTop Nat)) 101 none (WithTop.map (· ^ 2) (0 : WithTop Nat)) 1)
        (runs (withDist diffCfg (ofPoints noFilterOps fun p q => (absDiff p q).map (Option.map (WithTop.map (· ^ 2))))
          (WithTop.map (· ^ 2) (10 : WithTop Nat)) 101 none (WithTop.map (· ^ 2) (0 : WithTop Nat)) 1) w0 ls)
        (some l) 1 none).2 := by
  have hp := runs_parallel (cfg := diffCfg) (cfg' := withDist diffCfg
      (ofPoints noFilterOps fun p q => (absDiff p q).map (Option.map (WithTop.map (· ^ 2))))
          (WithTop.map (· ^ 2) (10 : WithTop Nat)) 101 none (WithTop.map (· ^ 2) (0 : WithTop Nat)) 1)
    (shape := fun _ => (1, 1))
    (R := relCorr NoFilter.Ok Eq (fun a x => a ∈ (Set.univ : Set (WithTop Nat)) ∧ x = WithTop.map (· ^ 2) a))
    ls w0 w0 (Inv.initial w0_initial) heap_all_ok
    (.start w0_initial w0_initial
      (fun r => ⟨⟨trivial, rfl, rfl, rfl, rfl⟩, .none, rfl, rfl, ⟨trivial, rfl, rfl, rfl, rfl⟩, rfl⟩) rfl)
  have hm : StrictMono (WithTop.map (· ^ 2 : Nat → Nat)) :=
    WithTop.strictMono_map_iff.mpr fun _ _ h => Nat.pow_lt_pow_left h (by decide)
  refine (C82_monotone (cfg := diffCfg) noFilter_laws (hm.strictMonoOn Set.univ) ⟨trivial, rfl⟩ ?_ trivial trivial
    (by decide +kernel) (by decide +kernel) (C82_points_distances noFilter_laws (fun _ _ _ _ => trivial)) .none
    (fun _ _ _ => rfl) hp.1 (some l) 1 none ⟨(by intro _ h; cases h), fun r _ => hp.2 r⟩
    (by intro _ h; cases h)).1
  intro x _
  exact (hm.injective.eq_iff' rfl).symm

end examples

end Norfair.Props
