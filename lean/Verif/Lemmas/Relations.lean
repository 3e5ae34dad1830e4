import Verif.Spec.Relations
import Verif.Props.Drift

/-! Filters keep linear relations between the coordinates if all of them are always observed. -/

set_option linter.unusedSectionVars false

namespace Norfair

open Norfair.Spec Norfair.Props Matrix

variable {K L D F X : Type}

section
variable [Field K]

theorem linComb_nil (a : List K) : linComb a [] = 0 := by unfold linComb; simp

theorem linComb_cons (x : K) (a : List K) (y : K) (l : List K) :
    linComb (x :: a) (y :: l) = x * y + linComb a l := by unfold linComb; simp

theorem linComb_vadd (a : List K) {p v : List K} (h : p.length = v.length) :
    linComb a (vadd p v) = linComb a p + linComb a v := by
  induction a generalizing p v with
  | nil => simp [linComb]
  | cons x a ih =>
    cases p with
    | nil => cases v with
      | nil => simp [vadd, linComb_nil]
      | cons => cases h
    | cons y p => cases v with
      | nil => cases h
      | cons z v =>
        have := ih (p := p) (v := v) (by simpa using h)
        simp only [vadd, List.zipWith_cons_cons, linComb_cons] at this ⊢
        rw [this]; ring

theorem linComb_map (a : List K) (k : K) (l : List K) : linComb a (l.map (k * ·)) = k * linComb a l := by
  induction a generalizing l with
  | nil => simp [linComb]
  | cons x a ih =>
    cases l with
    | nil => simp [linComb_nil]
    | cons y l => rw [List.map_cons, linComb_cons, linComb_cons, ih]; ring

theorem linComb_vsub (a : List K) {p v : List K} (h : p.length = v.length) :
    linComb a (vsub p v) = linComb a p - linComb a v := by
  induction a generalizing p v with
  | nil => simp [linComb]
  | cons x a ih =>
    cases p with
    | nil => cases v with
      | nil => simp [vsub, linComb_nil]
      | cons => cases h
    | cons y p => cases v with
      | nil => cases h
      | cons z v =>
        have := ih (p := p) (v := v) (by simpa using h)
        simp only [vsub, List.zipWith_cons_cons, linComb_cons] at this ⊢
        rw [this]; ring

theorem linComb_zeros (a : List K) (n : Nat) : linComb a (List.replicate n 0) = 0 := by
  have := linComb_map a 0 (List.replicate n 0)
  rw [List.map_replicate] at this
  simpa using this

theorem vmul_replicate {n : Nat} (k : K) {l : List K} (h : l.length = n) :
    vmul (List.replicate n k) l = l.map (k * ·) := by
  subst h
  induction l with
  | nil => rfl
  | cons x l ih =>
    show (k * x) :: List.zipWith (· * ·) (List.replicate l.length k) l = _
    unfold vmul at ih
    rw [ih]; rfl

/-- What a filter must do to keep the relation `(a, c)`: there is a property `Rel` of its states that holds after
the creation from points with the relation, after predictions, after corrections in which no coordinate is observed
or every coordinate, by a measurement with the relation, and after putting such a measurement at rest into the
state. -/
structure RelationLaws (fo : FilterOps K F) (Ok : F → Prop) (a : List K) (c : K) (Rel : F → Prop) : Prop where
  pos : ∀ f, Ok f → Rel f → linComb a ((fo.getX f).take (fo.dimZ f)) = c
  create : ∀ p : Pts K, p.data.length = p.dim * p.n → linComb a p.data = c → Rel (fo.create p)
  predict : ∀ f, Ok f → Rel f → Rel (fo.predict f)
  update : ∀ f z b, Ok f → Rel f → z.length = fo.dimZ f → linComb a z = c →
    Rel (fo.update f z (List.replicate (fo.dimZ f) b))
  rest : ∀ f z, Ok f → Rel f → z.length = fo.dimZ f → linComb a z = c →
    Rel (fo.setX f (z ++ List.replicate (fo.dimZ f) 0))
  same : ∀ f, Ok f → fo.setX f (fo.getX f) = f

theorem diagOf_replicate (n : Nat) (b : Bool) :
    diagOf (K := K) (List.replicate n b) = List.replicate n (if b then 1 else 0) := by
  simp [diagOf]

theorem diagOf_true (n : Nat) : diagOf (K := K) (List.replicate n true) = List.replicate n 1 := by
  simp [diagOf]

/-- `NoFilter` -/
theorem noFilter_relations (a : List K) (c : K) : RelationLaws (noFilterOps (K := K)) NoFilter.Ok a c
    (fun f => linComb a (f.x.take f.dimZ) = c) where
  pos := fun _ _ h => h
  create := by
    intro p hp h
    show linComb a ((p.data ++ List.replicate (p.dim * p.n) 0).take (p.dim * p.n)) = c
    rw [List.take_left' hp]; exact h
  predict := fun _ _ h => h
  update := by
    intro f z b hok hr hz h
    change z.length = f.dimZ at hz
    have hx : f.x.length = 2 * f.dimZ := hok
    cases b with
    | false =>
      have e : (f.update z (some (diagOf (List.replicate f.dimZ false)))).x.take f.dimZ = f.x.take f.dimZ := by
        have hl : (f.x.take f.dimZ).length = f.dimZ := by rw [List.length_take]; omega
        simp only [NoFilter.update, diagOf_replicate, List.map_replicate, Bool.false_eq_true, if_false, sub_zero]
        rw [vmul_replicate 0 hz, vmul_replicate 1 hl]
        simp only [one_mul, zero_mul, List.map_id']
        have h2 : vadd (z.map fun _ => (0 : K)) (f.x.take f.dimZ) = f.x.take f.dimZ := by
          rw [List.map_const', hz]
          generalize f.x.take f.dimZ = l at hl
          rw [← hl]
          clear * -
          induction l with
          | nil => rfl
          | cons x l ih =>
            show (0 + x) :: List.zipWith (· + ·) (List.replicate l.length 0) l = _
            unfold vadd at ih
            rw [ih, zero_add]
        rw [h2, List.take_left' hl]
      show linComb a ((f.update z (some (diagOf (List.replicate f.dimZ false)))).x.take f.dimZ) = c
      rw [e]; exact hr
    | true =>
    have e : (f.update z (some (diagOf (List.replicate f.dimZ true)))).x.take f.dimZ = z := by
      simp only [NoFilter.update, diagOf_true, List.map_replicate, sub_self]
      rw [vmul_replicate 1 hz, vmul_replicate 0 (by rw [List.length_take]; omega)]
      simp only [one_mul, zero_mul, List.map_id']
      have : (List.take f.dimZ f.x).map (fun _ => (0 : K)) = List.replicate f.dimZ 0 := by
        rw [List.map_const', List.length_take, hx]
        congr 1; omega
      rw [this]
      have h2 : vadd z (List.replicate f.dimZ 0) = z := by
        rw [← hz]
        clear * -
        induction z with
        | nil => rfl
        | cons x l ih =>
          show (x + 0) :: List.zipWith (· + ·) l (List.replicate l.length 0) = _
          unfold vadd at ih
          rw [ih, add_zero]
      rw [h2, List.take_left' hz]
    show linComb a ((f.update z (some (diagOf (List.replicate f.dimZ true)))).x.take f.dimZ) = c
    rw [e]; exact h
  rest := by
    intro f z _ _ hz h
    change z.length = f.dimZ at hz
    show linComb a ((z ++ List.replicate f.dimZ 0).take f.dimZ) = c
    rw [List.take_left' hz]; exact h
  same := fun _ _ => rfl

/-- all coordinates of the filter have the same variances -/
structure OKF.Even (pr : OKFParams K) (f : OKF K) : Prop where
  x : f.x.length = 2 * f.dimZ
  posVar : ∃ α, f.posVar = List.replicate f.dimZ α
  posVel : ∃ β, f.posVel = List.replicate f.dimZ β
  velVar : ∃ γ, f.velVar = List.replicate f.dimZ γ
  noise : f.defaultR = List.replicate f.dimZ pr.R

theorem vop_replicate (op : K → K → K) (n : Nat) (x y : K) :
    List.zipWith op (List.replicate n x) (List.replicate n y) = List.replicate n (op x y) := by
  simp

/-- `OptimizedKalmanFilter` -/
theorem okf_relations (pr : OKFParams K) (Ok : OKF K → Prop) (a : List K) (c : K) : RelationLaws (okfOps pr) Ok a c
    (fun f => f.Even pr ∧ linComb a (f.x.take f.dimZ) = c ∧ linComb a (f.x.drop f.dimZ) = 0) where
  pos := fun _ _ h => h.2.1
  create := by
    intro p hp h
    refine ⟨⟨?_, ⟨_, rfl⟩, ⟨_, rfl⟩, ⟨_, rfl⟩, rfl⟩, ?_, ?_⟩
    · show (p.data ++ List.replicate (p.dim * p.n) 0).length = 2 * (p.dim * p.n)
      rw [List.length_append, List.length_replicate, hp]; omega
    · show linComb a ((p.data ++ List.replicate (p.dim * p.n) 0).take (p.dim * p.n)) = c
      rw [List.take_left' hp]; exact h
    · show linComb a ((p.data ++ List.replicate (p.dim * p.n) 0).drop (p.dim * p.n)) = 0
      rw [List.drop_left' hp]; exact linComb_zeros _ _
  predict := by
    rintro f _ ⟨he, h1, h2⟩
    have hx := he.x
    have hl : (vadd (f.x.take f.dimZ) (f.x.drop f.dimZ)).length = f.dimZ := by
      unfold vadd
      rw [List.length_zipWith, List.length_take, List.length_drop]; omega
    refine ⟨⟨?_, he.posVar, he.posVel, he.velVar, he.noise⟩, ?_, ?_⟩
    · show (vadd (f.x.take f.dimZ) (f.x.drop f.dimZ) ++ f.x.drop f.dimZ).length = 2 * f.dimZ
      rw [List.length_append, hl, List.length_drop]; omega
    · show linComb a ((vadd (f.x.take f.dimZ) (f.x.drop f.dimZ) ++ f.x.drop f.dimZ).take f.dimZ) = c
      rw [List.take_left' hl, linComb_vadd a (by rw [List.length_take, List.length_drop]; omega), h1, h2, add_zero]
    · show linComb a ((vadd (f.x.take f.dimZ) (f.x.drop f.dimZ) ++ f.x.drop f.dimZ).drop f.dimZ) = 0
      rw [List.drop_left' hl]; exact h2
  update := by
    rintro f z b _ ⟨he, h1, h2⟩ hz h
    obtain ⟨m, hm⟩ : ∃ m : K, m = if b then 1 else 0 := ⟨_, rfl⟩
    change z.length = f.dimZ at hz
    obtain ⟨α, e1⟩ := he.posVar
    obtain ⟨β, e2⟩ := he.posVel
    obtain ⟨γ, e3⟩ := he.velVar
    have e4 := he.noise
    have hx := he.x
    have hlt : (f.x.take f.dimZ).length = f.dimZ := by rw [List.length_take]; omega
    have hld : (f.x.drop f.dimZ).length = f.dimZ := by rw [List.length_drop]; omega
    have hls : (vsub z (f.x.take f.dimZ)).length = f.dimZ := by
      unfold vsub; rw [List.length_zipWith, hlt, hz, min_self]
    have hone : vmul (vsub z (f.x.take f.dimZ)) (List.replicate f.dimZ m) =
        (vsub z (f.x.take f.dimZ)).map (m * ·) := by
      have : vmul (vsub z (f.x.take f.dimZ)) (List.replicate f.dimZ m) =
          vmul (List.replicate f.dimZ m) (vsub z (f.x.take f.dimZ)) := by
        unfold vmul; rw [List.zipWith_comm]; congr 1; funext x y; exact mul_comm _ _
      rw [this, vmul_replicate m hls]
    have herr : linComb a (vsub z (f.x.take f.dimZ)) = 0 := by
      rw [linComb_vsub a (hz.trans hlt.symm), h, h1, sub_self]
    set f' := (okfOps pr).update f z (List.replicate ((okfOps pr).dimZ f) b) with hf'
    have hval : ∃ k1 k2 A B C, f'.x = vadd (f.x.take f.dimZ) ((vsub z (f.x.take f.dimZ)).map (k1 * ·)) ++
        vadd (f.x.drop f.dimZ) ((vsub z (f.x.take f.dimZ)).map (k2 * ·)) ∧
        f'.posVar = List.replicate f.dimZ A ∧ f'.posVel = List.replicate f.dimZ B ∧
        f'.velVar = List.replicate f.dimZ C := by
      let N := α + β + (β + γ) + f.q + pr.R
      have q1 : ∀ k : K, vmul (List.replicate f.dimZ m) (vmul (List.replicate f.dimZ k)
          ((vsub z (f.x.take f.dimZ)).map (m * ·))) =
          (vsub z (f.x.take f.dimZ)).map (m * (k * m) * ·) := by
        intro k
        rw [vmul_replicate k (by rw [List.length_map]; exact hls),
          vmul_replicate m (by rw [List.length_map, List.length_map]; exact hls), List.map_map, List.map_map]
        congr 1
        funext x
        simp only [Function.comp]
        ring
      refine ⟨m * ((1 - pr.R / N) * m), m * ((β + γ) / N * m), (1 - pr.R / N) * (N * (1 - m) + pr.R * m),
        (β + γ) / N * (N * (1 - m) + pr.R * m), γ + (f.q - m * ((β + γ) / N * ((β + γ) / N) * N)), ?_, ?_, ?_, ?_⟩
      · show (f.update z none (some (diagOf (List.replicate f.dimZ b)))).x = _
        unfold OKF.update
        simp only [diagOf_replicate, ← hm, List.map_replicate, e1, e2, e3, e4, hone, vadd, vdiv, vop_replicate, q1, N]
      all_goals
        simp only [hf', okfOps, OKF.update, diagOf_replicate, ← hm, List.map_replicate, e1, e2, e3, e4, vadd, vdiv,
          vmul, vop_replicate, N]
    obtain ⟨k1, k2, A, B, C, v1, v2, v3, v4⟩ := hval
    have hd : f'.dimZ = f.dimZ := rfl
    have l1 : (vadd (f.x.take f.dimZ) ((vsub z (f.x.take f.dimZ)).map (k1 * ·))).length = f.dimZ := by
      unfold vadd; rw [List.length_zipWith, List.length_map, hls, hlt, min_self]
    have l2 : (vadd (f.x.drop f.dimZ) ((vsub z (f.x.take f.dimZ)).map (k2 * ·))).length = f.dimZ := by
      unfold vadd; rw [List.length_zipWith, List.length_map, hls, hld, min_self]
    refine ⟨⟨?_, ⟨A, v2⟩, ⟨B, v3⟩, ⟨C, v4⟩, e4⟩, ?_, ?_⟩
    · rw [v1, List.length_append, l1, l2, hd]; omega
    · rw [v1, hd, List.take_left' l1, linComb_vadd a (by rw [List.length_map, hls, hlt]), linComb_map, herr, h1]
      ring
    · rw [v1, hd, List.drop_left' l1, linComb_vadd a (by rw [List.length_map, hls, hld]), linComb_map, herr, h2]
      ring
  rest := by
    rintro f z _ ⟨he, h1, h2⟩ hz h
    change z.length = f.dimZ at hz
    refine ⟨⟨?_, he.posVar, he.posVel, he.velVar, he.noise⟩, ?_, ?_⟩
    · show (z ++ List.replicate f.dimZ 0).length = 2 * f.dimZ
      rw [List.length_append, List.length_replicate, hz]; omega
    · show linComb a ((z ++ List.replicate f.dimZ 0).take f.dimZ) = c
      rw [List.take_left' hz]; exact h
    · show linComb a ((z ++ List.replicate f.dimZ 0).drop f.dimZ) = 0
      rw [List.drop_left' hz]; exact linComb_zeros _ _
  same := fun _ _ => rfl

end

section
variable [Field K] [LinearOrder K] [IsStrictOrderedRing K]

theorem linComb_ofFn {d : Nat} (a : List K) (x : Fin d → K) :
    linComb a (List.ofFn x) = ∑ i : Fin d, a.getD i 0 * x i := by
  induction d generalizing a with
  | zero => simp [linComb]
  | succ d ih =>
    rw [List.ofFn_succ, Fin.sum_univ_succ]
    cases a with
    | nil => simp [linComb]
    | cons y a =>
      rw [linComb_cons, ih]
      simp

/-- the filters of `FilterPyKalmanFilterFactory` -/
theorem filterPy_relations {pr : FPParams K} (hR : 0 < pr.R) (hQ : 0 ≤ pr.Q) (hP : 0 ≤ pr.P) (a : List K) (c : K) :
    RelationLaws (filterPyOps pr)
      (fun f => f.2.Good ∧ f.2.Q = cvQ f.1 1 pr.Q ∧ f.2.R = diagonal fun _ => pr.R) a c
      (fun f => ∃ s : Fin f.1 → KF2 K, Gauss.Splits ⟨f.2.x, f.2.P⟩ s ∧
        (∃ α β γ, ∀ i, (s i).a = α ∧ (s i).b = β ∧ (s i).c = γ) ∧
        ∑ i : Fin f.1, a.getD i 0 * (s i).p = c ∧ ∑ i : Fin f.1, a.getD i 0 * (s i).v = 0) where
  pos := by
    rintro ⟨d, f⟩ _ ⟨s, hs, _, h1, _⟩
    show linComb a ((FPKalman.list f.x).take d) = c
    unfold FPKalman.list
    rw [List.take_left' (by simp), linComb_ofFn, ← h1]
    exact Finset.sum_congr rfl fun i _ => congrArg (a.getD (i : Fin d) 0 * ·) (hs.pos i)
  create := by
    intro p hp h
    refine ⟨_, splits_iff.mpr (create_gauss pr p), ⟨1, 0, pr.P, fun i => ⟨rfl, rfl, rfl⟩⟩, ?_, ?_⟩
    · rw [← h]
      have e : p.data = List.ofFn fun i : Fin (p.dim * p.n) => p.data.getD i 0 := by
        apply List.ext_getElem?
        intro k
        rw [List.getElem?_ofFn]
        split
        · rename_i hk
          rw [← hp] at hk
          simp [List.getElem?_eq_getElem hk]
        · rw [List.getElem?_eq_none]; omega
      conv_rhs => rw [e, linComb_ofFn]
      rfl
    · show ∑ i : Fin (p.dim * p.n), a.getD i 0 * (0 : K) = 0
      simp
  predict := by
    rintro ⟨d, f⟩ ⟨h, hq, hr⟩ ⟨s, hs, ⟨α, β, γ, he⟩, h1, h2⟩
    have hg : f.gauss = dense s := splits_iff.mp hs
    have hp : f.predict.gauss = dense fun i => (s i).predict 1 pr.Q := by
      rw [FPKalman.gauss_predict, h.F, hq, hg, dense_predict]
    refine ⟨_, splits_iff.mpr hp, ⟨α + 2 * β + γ + 1, β + γ, γ + pr.Q, fun i => ?_⟩, ?_, h2⟩
    · obtain ⟨e1, e2, e3⟩ := he i
      simp only [KF2.predict, e1, e2, e3, and_self]
    · show ∑ i : Fin d, a.getD i 0 * ((s i).p + (s i).v) = c
      have : (fun i : Fin d => a.getD i 0 * ((s i).p + (s i).v)) =
          fun i : Fin d => a.getD i 0 * (s i).p + a.getD i 0 * (s i).v := funext fun i => mul_add _ _ _
      rw [this, Finset.sum_add_distrib]
      rw [show ∑ i : Fin d, a.getD i 0 * (s i).p = c from h1, show ∑ i : Fin d, a.getD i 0 * (s i).v = 0 from h2,
        add_zero]
  update := by
    rintro ⟨d, f⟩ z b ⟨h, hq, hr⟩ ⟨s, hs, ⟨α, β, γ, he⟩, h1, h2⟩ hz hc
    change z.length = d at hz
    cases b with
    | false =>
      have S2 := C33_filterPy h hs hr (z := z) (mask := List.replicate d false)
      simp only at S2
      have e : (fun i : Fin d => (s i).update pr.R (z.getD i 0) ((List.replicate d false).getD i false)) = s := by
        funext i
        simp [KF2.update]
      rw [e] at S2
      exact ⟨s, S2, ⟨α, β, γ, he⟩, h1, h2⟩
    | true =>
    have S2 := C33_filterPy h hs hr (z := z) (mask := List.replicate d true)
    simp only at S2
    refine ⟨_, S2, ⟨α - α ^ 2 / (α + pr.R), β - α * β / (α + pr.R), γ - β ^ 2 / (α + pr.R), fun i => ?_⟩, ?_, ?_⟩
    · obtain ⟨e1, e2, e3⟩ := he i
      have hm : (List.replicate d true).getD i false = true := by
        have hi : i.val < d := i.2
        simp [hi]
      simp only [KF2.update, hm, if_true, e1, e2, e3, and_self]
    all_goals
      have herr : ∑ i : Fin d, a.getD i 0 * (z.getD i 0 - (s i).p) = 0 := by
        have : (fun i : Fin d => a.getD i 0 * (z.getD i 0 - (s i).p)) =
            fun i : Fin d => a.getD i 0 * z.getD i 0 - a.getD i 0 * (s i).p := funext fun i => mul_sub _ _ _
        rw [this, Finset.sum_sub_distrib, show ∑ i : Fin d, a.getD i 0 * (s i).p = c from h1, sub_eq_zero, ← hc]
        have e : z = List.ofFn fun i : Fin d => z.getD i 0 := by
          apply List.ext_getElem?
          intro k
          rw [List.getElem?_ofFn]
          split
          · rename_i hk
            rw [← hz] at hk
            simp [List.getElem?_eq_getElem hk]
          · rw [List.getElem?_eq_none]; omega
        conv_rhs => rw [e, linComb_ofFn]
      have hm : ∀ i : Fin d, (List.replicate d true).getD i false = true := fun i => by simp
    · have key : ∀ i : Fin d, a.getD i 0 * ((s i).update pr.R (z.getD i 0) ((List.replicate d true).getD i false)).p =
          a.getD i 0 * (s i).p + α / (α + pr.R) * (a.getD i 0 * (z.getD i 0 - (s i).p)) := by
        intro i
        simp only [KF2.update, hm, if_true, (he i).1]
        ring
      show ∑ i : Fin d, _ = c
      rw [Finset.sum_congr rfl fun i _ => key i, Finset.sum_add_distrib, ← Finset.mul_sum, herr, mul_zero, add_zero]
      exact h1
    · have key : ∀ i : Fin d, a.getD i 0 * ((s i).update pr.R (z.getD i 0) ((List.replicate d true).getD i false)).v =
          a.getD i 0 * (s i).v + β / (α + pr.R) * (a.getD i 0 * (z.getD i 0 - (s i).p)) := by
        intro i
        simp only [KF2.update, hm, if_true, (he i).1, (he i).2.1]
        ring
      show ∑ i : Fin d, _ = 0
      rw [Finset.sum_congr rfl fun i _ => key i, Finset.sum_add_distrib, ← Finset.mul_sum, herr, mul_zero, add_zero]
      exact h2
  rest := by
    rintro ⟨d, f⟩ z _ ⟨s, hs, ⟨α, β, γ, he⟩, h1, h2⟩ hz hc
    change z.length = d at hz
    refine ⟨fun i => { s i with p := z.getD i 0, v := 0 }, ?_, ⟨α, β, γ, he⟩, ?_, ?_⟩
    · refine ⟨fun i => ?_, fun i => ?_, hs.posPos, hs.posVel, hs.velPos, hs.velVel⟩
      · have hi : i.val < z.length := hz ▸ i.2
        show (z ++ List.replicate d 0).getD i 0 = z.getD i 0
        simp only [List.getD_eq_getElem?_getD, List.getElem?_append_left hi]
      · show (z ++ List.replicate d 0).getD (d + i) 0 = 0
        have hi : i.val < d := i.2
        rw [List.getD_eq_getElem?_getD, List.getElem?_append_right (by omega)]
        simp [hz, hi]
    · show ∑ i : Fin d, a.getD i 0 * z.getD i 0 = c
      rw [← hc]
      have e : z = List.ofFn fun i : Fin d => z.getD i 0 := by
        apply List.ext_getElem?
        intro k
        rw [List.getElem?_ofFn]
        split
        · rename_i hk
          rw [← hz] at hk
          simp [List.getElem?_eq_getElem hk]
        · rw [List.getElem?_eq_none]; omega
      conv_rhs => rw [e, linComb_ofFn]
    · show ∑ i : Fin d, a.getD i 0 * (0 : K) = 0
      simp
  same := by
    rintro ⟨d, f⟩ _
    show (⟨d, { f with x := FPKalman.unlist d (FPKalman.list f.x) }⟩ : Σ d, FPKalman K d) = ⟨d, f⟩
    have : FPKalman.unlist d (FPKalman.list f.x) = f.x := by
      funext i
      rcases i with i | i
      · simp [FPKalman.unlist, FPKalman.list_pos]
      · simp [FPKalman.unlist, FPKalman.list_vel]
    rw [this]

end

end Norfair
