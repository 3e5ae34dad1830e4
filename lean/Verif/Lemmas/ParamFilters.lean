import Verif.Spec.Affine
import Verif.Lemmas.Param
import Verif.Lemmas.PointsInv
import Verif.Lemmas.FilterLaws
import Verif.Lemmas.FilterPy

/-! The filters in other units; parallel histories. -/

set_option linter.unusedSectionVars false

namespace Norfair

open Spec

variable {K L L' D D' F F' X X' : Type}

section
variable [CommRing K]

@[simp] theorem aff_length (a b : Nat → K) (l : List K) : (aff a b l).length = l.length := by
  induction l generalizing a b with
  | nil => rfl
  | cons x l ih => simp [aff, ih]

theorem aff_get (a b : Nat → K) (l : List K) (k : Nat) :
    (aff a b l)[k]? = l[k]?.map (fun x => a k * x + b k) := by
  induction l generalizing a b k with
  | nil => rfl
  | cons x l ih =>
    cases k with
    | zero => rfl
    | succ k => simp [aff, ih]

theorem aff_zeros (a : Nat → K) (n : Nat) : aff a (fun _ => 0) (List.replicate n 0) = List.replicate n 0 := by
  induction n generalizing a with
  | zero => rfl
  | succ n ih => simp [List.replicate_succ, aff, ih]

theorem aff_vadd (a b c : Nat → K) (p v : List K) :
    vadd (aff a b p) (aff a c v) = aff a (fun k => b k + c k) (vadd p v) := by
  unfold vadd
  induction p generalizing a b c v with
  | nil => simp [aff]
  | cons x p ih =>
    cases v with
    | nil => simp [aff]
    | cons y v =>
      simp only [aff, List.zipWith_cons_cons, ih]
      congr 1
      ring

theorem aff_vsub (a b : Nat → K) (p v : List K) :
    vsub (aff a b p) (aff a b v) = aff a (fun _ => 0) (vsub p v) := by
  unfold vsub
  induction p generalizing a b v with
  | nil => simp [aff]
  | cons x p ih =>
    cases v with
    | nil => simp [aff]
    | cons y v =>
      simp only [aff, List.zipWith_cons_cons, ih]
      congr 1
      ring

theorem aff_vmul_left (a : Nat → K) (c e : List K) :
    vmul c (aff a (fun _ => 0) e) = aff a (fun _ => 0) (vmul c e) := by
  unfold vmul
  induction c generalizing a e with
  | nil => simp [aff]
  | cons x p ih =>
    cases e with
    | nil => simp [aff]
    | cons y v =>
      simp only [aff, List.zipWith_cons_cons, ih]
      congr 1
      ring

theorem aff_vmul_right (a : Nat → K) (c e : List K) :
    vmul (aff a (fun _ => 0) e) c = aff a (fun _ => 0) (vmul e c) := by
  unfold vmul
  induction c generalizing a e with
  | nil => simp [aff]
  | cons x p ih =>
    cases e with
    | nil => simp [aff]
    | cons y v =>
      simp only [aff, List.zipWith_cons_cons, ih]
      congr 1
      ring

theorem aff_maskAssign (a b : Nat → K) (m : List Bool) (p z : List K) :
    maskAssign m (aff a b p) (aff a b z) = aff a b (maskAssign m p z) := by
  induction m generalizing a b p z with
  | nil => simp [maskAssign]
  | cons x m ih =>
    cases p with
    | nil => simp [maskAssign, aff]
    | cons y p =>
      cases z with
      | nil => simp [maskAssign, aff]
      | cons u z =>
        simp only [aff, maskAssign, ih]
        cases x <;> rfl

@[simp] theorem maskAssign_length' {K : Type} (m : List Bool) (p z : List K) : (maskAssign m p z).length = p.length := by
  induction m generalizing p z with
  | nil => simp [maskAssign]
  | cons x m ih =>
    cases p with
    | nil => simp [maskAssign]
    | cons y p =>
      cases z with
      | nil => simp [maskAssign]
      | cons u z => simp [maskAssign, ih]

theorem affState_append (a b : Nat → K) {d : Nat} {p v : List K} (h : p.length = d) :
    affState a b d (p ++ v) = aff a b p ++ aff a (fun _ => 0) v := by
  unfold affState
  rw [← h]
  simp

theorem affState_length (a b : Nat → K) (d : Nat) (x : List K) : (affState a b d x).length = x.length := by
  unfold affState
  simp only [List.length_append, aff_length, List.length_take, List.length_drop]
  omega

theorem affState_take (a b : Nat → K) {d : Nat} {x : List K} (h : d ≤ x.length) :
    (affState a b d x).take d = aff a b (x.take d) := by
  unfold affState
  have : (aff a b (x.take d)).length = d := by simp [h]
  rw [List.take_append_of_le_length (by omega), List.take_of_length_le (by omega)]

theorem affState_drop (a b : Nat → K) {d : Nat} {x : List K} (h : d ≤ x.length) :
    (affState a b d x).drop d = aff a (fun _ => 0) (x.drop d) := by
  unfold affState
  have : (aff a b (x.take d)).length = d := by simp [h]
  rw [List.drop_append_of_le_length (by omega), List.drop_of_length_le (by omega), List.nil_append]

end

theorem affine_filters [CommRing K] {fo : FilterOps K F} {Ok : F → Prop} {a b : Nat → K}
    (hL : FilterLaws fo Ok) (hA : AffineLaws fo Ok a b) (R : Corr K K L L' D D' F F X X')
    (hv : R.vec = fun l m => m = aff a b l) (hf : R.filter = AffFilter fo Ok a b) : R.Filters fo fo where
  create := by
    intro p q h
    have hvec := h.vec
    rw [hv] at hvec
    rw [hf]
    obtain ⟨c1, c2, _⟩ := hL.create p h.len
    refine ⟨c1, ?_⟩
    rw [c2]
    exact hA.create p q h.n h.dim h.len hvec
  dimZ := by
    intro f g h
    rw [hf] at h
    obtain ⟨ho, rfl⟩ := h
    exact (hL.setX f _ ho (by rw [affState_length, hL.len f ho])).2.1
  predict := by
    intro f g h
    rw [hf] at h ⊢
    obtain ⟨ho, rfl⟩ := h
    obtain ⟨p1, p2, _⟩ := hL.predict f ho
    refine ⟨⟨p1, ?_⟩, p2⟩
    rw [p2]
    exact hA.predict f ho
  update := by
    intro f g z z' mask h hz hzl hml
    rw [hf] at h ⊢
    rw [hv] at hz
    obtain ⟨ho, rfl⟩ := h
    have hz' : z' = aff a b z := hz
    subst hz'
    obtain ⟨p1, p2⟩ := hL.update f z mask ho hzl hml
    refine ⟨⟨p1, ?_⟩, p2⟩
    rw [p2]
    exact hA.update f z mask ho hzl hml
  positions := by
    intro f g h
    rw [hf] at h
    rw [hv]
    obtain ⟨ho, rfl⟩ := h
    have hx := hL.len f ho
    rw [(hL.setX f _ ho (by rw [affState_length, hx])).2.2]
    exact ⟨affState_take a b (by omega), by simp [hx]; omega⟩
  setX := by
    intro f g z z' m1 m2 h hz hzl h1 h2
    rw [hf] at h ⊢
    rw [hv] at hz
    obtain ⟨ho, rfl⟩ := h
    have hz' : z' = aff a b z := hz
    subst hz'
    have hx := hL.len f ho
    have hg := (hL.setX f _ ho (by rw [affState_length, hx] : (affState a b (fo.dimZ f) (fo.getX f)).length = _)).2.2
    rw [hg, affState_take a b (by omega), affState_drop a b (by omega)]
    have hlen : (maskAssign m1 ((fo.getX f).take (fo.dimZ f)) z ++
        maskAssign m2 ((fo.getX f).drop (fo.dimZ f)) (List.replicate (fo.dimZ f) 0)).length = 2 * fo.dimZ f := by
      simp [hx]; omega
    obtain ⟨s1, s2, s3⟩ := hL.setX f _ ho hlen
    refine ⟨⟨s1, ?_⟩, s2⟩
    rw [s2, s3, hA.setX _ _ _ ho (by rw [affState_length, hx]), hA.setX _ _ _ ho hlen]
    congr 1
    rw [affState_append a b (by simp [hx]; omega), ← aff_maskAssign, ← aff_maskAssign, aff_zeros]

theorem noFilter_affine [CommRing K] (a b : Nat → K) : AffineLaws noFilterOps NoFilter.Ok a b where
  create := by
    rintro ⟨n, dim, p⟩ ⟨n', dim', q⟩ hn hd hl hq
    simp only at hn hd hl hq
    subst hn hd hq
    simp only [noFilterOps]
    congr 1
    rw [affState_append a b hl, aff_zeros]
  predict := fun f _ => rfl
  update := by
    intro f z mask ho hz hm
    simp only [noFilterOps] at hz hm ⊢
    unfold NoFilter.Ok at ho
    simp only [NoFilter.update]
    congr 1
    rw [affState_take a b (by omega), affState_drop a b (by omega), affState_append a b (by
      simp [hz, hm, ho]; omega)]
    congr 1
    have : ∀ (m : List Bool) (a b : Nat → K) (z p : List K), vadd (vmul (diagOf m) (aff a b z))
        (vmul ((diagOf m).map fun a => 1 - a) (aff a b p)) =
        aff a b (vadd (vmul (diagOf m) z) (vmul ((diagOf m).map fun a => 1 - a) p)) := by
      intro m
      induction m with
      | nil => intros; rfl
      | cons x m ih =>
        intro a b z p
        cases z with
        | nil => rfl
        | cons y z =>
          cases p with
          | nil => simp [vadd, vmul, aff]
          | cons u p =>
            have := ih (fun k => a (k + 1)) (fun k => b (k + 1)) z p
            simp only [diagOf, vadd, vmul, aff, List.map_cons, List.zipWith_cons_cons] at this ⊢
            rw [this]
            congr 1
            ring
    exact this mask a b z _
  setX := fun f x y _ _ => rfl

theorem okf_affine [Field K] (pr : OKFParams K) (a b : Nat → K) : AffineLaws (okfOps pr) OKF.Ok a b where
  create := by
    rintro ⟨n, dim, p⟩ ⟨n', dim', q⟩ hn hd hl hq
    simp only at hn hd hl hq
    subst hn hd hq
    simp only [okfOps, OKF.create]
    congr 1
    rw [affState_append a b hl, aff_zeros]
  predict := by
    intro f ho
    have hx := ho.x
    simp only [okfOps, OKF.predict]
    congr 1
    rw [affState_take a b (by omega), affState_drop a b (by omega), affState_append a b (by
      simp [hx]; omega), aff_vadd]
    simp
  update := by
    intro f z mask ho hz hm
    have hx := ho.x
    simp only [okfOps] at hz hm ⊢
    simp only [OKF.update]
    congr 1
    rw [affState_take a b (by omega), affState_drop a b (by omega), affState_append a b (by
      simp [hz, hm, hx, ho.posVar, ho.posVel, ho.velVar, ho.defaultR]; omega),
      aff_vsub, aff_vmul_right, aff_vmul_left, aff_vmul_left, aff_vmul_left, aff_vmul_left, aff_vadd, aff_vadd]
    simp
  setX := fun f x y _ _ => rfl

theorem filterPy_affine [Field K] [LinearOrder K] [IsStrictOrderedRing K] (pr : FPParams K)
    (hR : 0 < pr.R) (hQ : 0 ≤ pr.Q) (hP : 0 ≤ pr.P) (a b : Nat → K) :
    AffineLaws (filterPyOps pr) (fun f => f.2.Good) a b := by
  -- the state in other units, coordinate by coordinate
  have hun : ∀ {d : Nat} (x : SIdx d → K), FPKalman.unlist d (affState a b d (FPKalman.list x)) =
      Sum.elim (fun i : Fin d => a i * x (Sum.inl i) + b i) (fun i : Fin d => a i * x (Sum.inr i)) := by
    intro d x
    have hl := FPKalman.list_length x
    have hlen : (aff a b ((FPKalman.list x).take d)).length = d := by simp [hl]; omega
    funext i
    rcases i with i | i
    · simp only [FPKalman.unlist, Sum.elim_inl, affState, List.getD_eq_getElem?_getD]
      rw [List.getElem?_append_left (by rw [hlen]; exact i.2), aff_get, List.getElem?_take_of_lt i.2,
        FPKalman.list_pos]
      rfl
    · simp only [FPKalman.unlist, Sum.elim_inr, affState, List.getD_eq_getElem?_getD]
      rw [List.getElem?_append_right (by rw [hlen]; omega), hlen, aff_get, List.getElem?_drop,
        Nat.add_sub_cancel_left, FPKalman.list_vel]
      simp
  refine ⟨?_, ?_, ?_, ?_⟩
  · rintro ⟨n, dim, p⟩ ⟨n', dim', q⟩ hn hd hl hq
    simp only at hn hd hl hq
    subst hn hd hq
    simp only [filterPyOps]
    congr 1
    rw [hun]
    apply FPKalman.ext <;> try rfl
    rotate_left
    · funext i j
      rcases i with i | i <;> rcases j with j | j <;> rfl
    simp only [FPKalman.create]
    funext i
    rcases i with i | i
    · have hi : i.1 < p.length := by rw [hl]; exact i.2
      simp [Pts.vec, List.getD_eq_getElem?_getD, aff_get, List.getElem?_eq_getElem hi]
    · simp
  · intro f ho
    simp only [filterPyOps]
    congr 1
    rw [hun, hun]
    simp only [FPKalman.predict]
    congr 1
    funext i
    rw [ho.F, cvF, ← Sum.elim_comp_inl_inr f.2.x, Matrix.fromBlocks_mulVec, Matrix.fromBlocks_mulVec]
    rcases i with i | i
    · simp; ring
    · simp
  · intro f z mask ho hz hm
    simp only [filterPyOps] at hz hm ⊢
    congr 1
    rw [hun, hun]
    obtain ⟨r, hr, hRd⟩ := ho.R
    obtain ⟨s, hs, hg⟩ := ho.s
    have e0 : ∀ j, f.2.x j = (dense s).x j := fun j => congrFun (congrArg Gauss.x hg) j
    have e := FPKalman.gauss_update f.2 (fun i => z.getD i 0) none (some (hitH K f.1 mask))
      (by rw [hitH_eq]; exact ho.unit _)
    simp only [Option.getD_some, Option.getD_none] at e
    rw [hg, hRd, hitH_eq,
      dense_update s (fun i => mask.getD i false) (fun _ => r) (fun i => z.getD i 0)
        (fun i => (good_S hs (fun i => mask.getD i false) (fun _ => hr) i).ne')] at e
    have e1 : ∀ j, (f.2.update (fun i => z.getD i 0) none (some (hitH K f.1 mask))).x j =
        (dense fun i => (s i).update r (z.getD i 0) (mask.getD i false)).x j := by
      intro j; rw [hitH_eq]; exact congrFun (congrArg Gauss.x e) j
    have ho' := ho.setX (Sum.elim (fun i : Fin f.1 => a i * f.2.x (Sum.inl i) + b i)
      (fun i => a i * f.2.x (Sum.inr i)))
    obtain ⟨g, hgd⟩ : ∃ g : FPKalman K f.1, g = { f.2 with
        x := Sum.elim (fun i : Fin f.1 => a i * f.2.x (Sum.inl i) + b i)
          (fun i => a i * f.2.x (Sum.inr i)) } := ⟨_, rfl⟩
    rw [← hgd] at ho' ⊢
    let s' : Fin f.1 → KF2 K := fun i => { s i with p := a i * (s i).p + b i, v := a i * (s i).v }
    have hg' : FPKalman.gauss g = dense s' := by
      rw [hgd]
      apply Gauss.ext
      · funext i
        rcases i with i | i <;> simp [FPKalman.gauss, dense, s', e0]
      · have := congrArg Gauss.P hg
        exact this
    have hRd' : g.R = Matrix.diagonal fun _ => r := by rw [hgd]; exact hRd
    have hs' : ∀ i, (s' i).Psd := fun i => hs i
    have e' := FPKalman.gauss_update g (fun i => (aff a b z).getD i 0) none (some (hitH K f.1 mask))
      (by rw [hitH_eq]; exact ho'.unit _)
    simp only [Option.getD_some, Option.getD_none] at e'
    rw [hg', hRd', hitH_eq,
      dense_update s' (fun i => mask.getD i false) (fun _ => r) (fun i => (aff a b z).getD i 0)
        (fun i => (good_S hs' (fun i => mask.getD i false) (fun _ => hr) i).ne')] at e'
    have e1' : ∀ j, (g.update (fun i => (aff a b z).getD i 0) none (some (hitH K f.1 mask))).x j =
        (dense fun i => (s' i).update r ((aff a b z).getD i 0) (mask.getD i false)).x j := by
      intro j; rw [hitH_eq]; exact congrFun (congrArg Gauss.x e') j
    apply FPKalman.ext
    · funext j
      refine (e1' j).trans ?_
      have hzz : ∀ i : Fin f.1, (aff a b z).getD i 0 = a i * z.getD i 0 + b i := by
        intro i
        have hi : i.1 < z.length := by rw [hz]; exact i.2
        simp [List.getD_eq_getElem?_getD, aff_get, List.getElem?_eq_getElem hi]
      rcases j with j | j
      · simp only [Sum.elim_inl, e1]
        simp only [dense, Sum.elim_inl, KF2.update, hzz, s']
        split
        · simp only; ring
        · rfl
      · simp only [Sum.elim_inr, e1]
        simp only [dense, Sum.elim_inr, KF2.update, hzz, s']
        split
        · simp only; ring
        · rfl
    all_goals rw [hgd]; rfl
  · intro f x y _ _
    rfl

section
variable {K' : Type}
variable [LinearOrder K] [Zero K] [LinearOrder D] [OrderTop D] [Zero D] [DecidableEq L]
  [LinearOrder K'] [Zero K'] [LinearOrder D'] [OrderTop D'] [Zero D'] [DecidableEq L']
  {R : Corr K K' L L' D D' F F' X X'} {cfg : Cfg K L D F X} {cfg' : Cfg K' L' D' F' X'}
  {shape : L → Nat × Nat}

theorem Parallel.reaches {w : World K L D F X} {w' : World K' L' D' F' X'}
    (h : Parallel R cfg cfg' shape w w') : ∃ w0 : World K L D F X, w0.Initial ∧ WfReaches cfg shape w0 w := by
  induction h with
  | @start w _ h0 _ _ _ => exact ⟨w, h0, .refl _⟩
  | call dets period _ hc _ ih =>
    obtain ⟨w0, h0, h⟩ := ih
    exact ⟨w0, h0, .call _ _ _ h hc⟩
  | env gcount _ he _ ih =>
    obtain ⟨w0, h0, h⟩ := ih
    exact ⟨w0, h0, .env _ _ h he trivial⟩

theorem Parallel.dimOk {Ok : F → Prop} (hL : FilterLaws cfg.flt Ok)
    (hs : ∀ a b, Compat cfg a b → shape a = shape b) {w : World K L D F X} {w' : World K' L' D' F' X'}
    (h : Parallel R cfg cfg' shape w w') : DimOk cfg.flt w := by
  obtain ⟨w0, h0, hr⟩ := Parallel.reaches h
  exact fun o ho => (WfReaches.pointsOk hL hs h0 hr o ho).dimZ

theorem Parallel.worlds {Ok : F → Prop} (hL : FilterLaws cfg.flt Ok)
    (hs : ∀ a b, Compat cfg a b → shape a = shape b) (hP : R.Plain) (hR : R.Cfgs cfg cfg') {w : World K L D F X}
    {w' : World K' L' D' F' X'} (h : Parallel R cfg cfg' shape w w') : R.Worlds w w' := by
  induction h with
  | start h0 h0' hh hg =>
    refine ⟨hh, hg, by rw [h0.2.1, h0'.2.1], by rw [h0.2.2, h0'.2.2], ?_⟩
    rw [h0.1, h0'.1]
    exact .nil
  | call dets period hp _ hct ih => exact (update_rel hP hR ih (Parallel.dimOk hL hs hp) dets period hct).1
  | env gcount _ _ hh ih => exact ⟨hh, rfl, ih.count, ih.initCount, ih.objs⟩

/-- a further call after a parallel history -/
theorem Parallel.outs {Ok : F → Prop} (hL : FilterLaws cfg.flt Ok)
    (hs : ∀ a b, Compat cfg a b → shape a = shape b) (hP : R.Plain) (hR : R.Cfgs cfg cfg') {w : World K L D F X}
    {w' : World K' L' D' F' X'} (h : Parallel R cfg cfg' shape w w') (dets : Option (List Ref)) (period : Int)
    {ct ct'} (hct : Option.Rel R.Trans ct ct') :
    R.Outs (update cfg w dets period ct).2 (update cfg' w' dets period ct').2 :=
  (update_rel hP hR (Parallel.worlds hL hs hP hR h) (Parallel.dimOk hL hs h) dets period hct).2

end

end Norfair
