import Verif.Spec.Stabilized
import Verif.Lemmas.Camera
import Verif.Props.Parametric
import Verif.Props.CameraMotion

/-! C83: a tracker that knows the camera movement works like one that is given stabilized detections. -/

set_option linter.unusedSectionVars false

namespace Norfair.Props

open Norfair Norfair.Spec

variable {K L D F X : Type}

/-- during a call with the transformation `c` and the detections `l` -/
def stableCorr (Ok : F → Prop) (shapes : Nat → Nat → Prop) (c : CoordTrans K) (l : List Ref) :
    Corr K K L L D D F F X X where
  shape := shapes
  vec := Eq
  score := Eq
  label := Eq
  dist := Eq
  kept := Option.Rel Eq
  filter := fun f g => Ok f ∧ g = f
  extra := Eq
  pts := fun r p a q b => r ∈ l → Shaped shapes p ∧ a = c.relToAbs p ∧ q = b
  back := fun g h => g = some c.absToRel ∧ h = none

/-- between calls -/
def betweenCorr (Ok : F → Prop) (shapes : Nat → Nat → Prop) : Corr K K L L D D F F X X where
  shape := shapes
  vec := Eq
  score := Eq
  label := Eq
  dist := Eq
  kept := Option.Rel Eq
  filter := fun f g => Ok f ∧ g = f
  extra := Eq
  pts := fun _ _ _ _ _ => True
  back := fun _ h => h = none

theorem ptsRel_eq {shapes : Nat → Nat → Prop} {p q : Pts K} (h : PtsRel shapes Eq p q) : q = p := by
  obtain ⟨n, dim, d⟩ := p
  obtain ⟨n', dim', d'⟩ := q
  have h1 := h.n
  have h2 := h.dim
  have h3 : d = d' := h.vec
  simp only at h1 h2
  subst h1 h2 h3
  rfl

theorem forall2_eq {A : Type} {a b : List A} (h : List.Forall₂ Eq a b) : b = a :=
  (List.forall₂_eq_eq_eq ▸ h : a = b).symm

theorem optRel_eq {A : Type} {Q : A → A → Prop} (hQ : ∀ x y, Q x y → y = x) {a b : Option A} (h : Option.Rel Q a b) :
    b = a := by
  cases h with
  | none => rfl
  | some h => rw [hQ _ _ h]

theorem optRel_refl {A : Type} {Q : A → A → Prop} (hQ : ∀ x, Q x x) (a : Option A) : Option.Rel Q a a := by
  cases a with
  | none => exact .none
  | some x => exact .some (hQ x)

section
variable [Zero K] [LinearOrder K] [LinearOrder D] [OrderTop D] [Zero D] [DecidableEq L]

theorem sameDet_rel {Ok : F → Prop} {shapes : Nat → Nat → Prop} {d e : Det K L X} (h : SameDet shapes d e) (r : Ref) :
    (betweenCorr Ok shapes : Corr K K L L D D F F X X).Dets r d e := by
  obtain ⟨⟨hs, hl⟩, he⟩ := h
  rw [he]
  exact ⟨trivial, optRel_refl (fun x => List.forall₂_same.mpr fun _ _ => rfl) _, rfl, rfl, ⟨hs, rfl, rfl, hl, rfl⟩, rfl⟩

theorem stable_det_same {Ok : F → Prop} {shapes : Nat → Nat → Prop} {c : CoordTrans K} {l : List Ref} {r : Ref}
    {d e : Det K L X} (h : (stableCorr Ok shapes c l : Corr K K L L D D F F X X).Dets r d e) :
    e = { d with points := e.points } := by
  have h1 := optRel_eq (fun _ _ => forall2_eq) h.scores
  have h2 : d.label = e.label := h.label
  have h3 : d.extra = e.extra := h.extra
  have h4 := ptsRel_eq h.absPoints
  have h5 := h.age
  obtain ⟨a1, a2, a3, a4, a5, a6⟩ := d
  obtain ⟨b1, b2, b3, b4, b5, b6⟩ := e
  simp only at h1 h2 h3 h4 h5
  subst h1 h2 h3 h4 h5
  rfl

theorem stable_obj_same {Ok : F → Prop} {shapes : Nat → Nat → Prop} {c : CoordTrans K} {l : List Ref}
    {o p : Obj K L D F} (h : (stableCorr Ok shapes c l : Corr K K L L D D F F X X).Objs o p) :
    p = { o with absToRel := none } := by
  have h1 := optRel_eq (fun _ _ => Eq.symm) h.lastDistance
  have h2 := optRel_eq (fun _ _ => Eq.symm) h.curMin
  have h3 := h.filter.2
  have h4 : o.label = p.label := h.label
  have h5 := h.absToRel.2
  have e1 := h.initId
  have e2 := h.id
  have e3 := h.globalId
  have e4 := h.numPoints
  have e5 := h.dimPoints
  have e6 := h.hitCounter
  have e7 := h.reidHitCounter
  have e8 := h.lastDet
  have e9 := h.age
  have e10 := h.isInit
  have e11 := h.pwMax
  have e12 := h.initialPeriod
  have e13 := h.once
  have e14 := h.pointHits
  have e15 := h.past
  clear h
  cases o
  cases p
  simp only at h1 h2 h3 h4 h5 e1 e2 e3 e4 e5 e6 e7 e8 e9 e10 e11 e12 e13 e14 e15
  subst h1 h2 h3 h4 h5 e1 e2 e3 e4 e5 e6 e7 e8 e9 e10 e11 e12 e13 e14 e15
  rfl

theorem stable_view_same {Ok : F → Prop} {shapes : Nat → Nat → Prop} {c : CoordTrans K} {l : List Ref}
    {fo : FilterOps K F} {v u : ObjView K L D F X}
    (h : (stableCorr Ok shapes c l : Corr K K L L D D F F X X).Views fo v u) : ViewSame v u :=
  ⟨stable_obj_same h.obj, stable_det_same h.last, h.past.imp fun _ _ ⟨_, h⟩ => stable_det_same h⟩

theorem stable_core {cfg : Cfg K L D F X} {Ok : F → Prop} (hL : FilterLaws cfg.flt Ok)
    (hreid : ∀ f, cfg.reid = some f → Absolute f) (shapes : Nat → Nat → Prop) (c : CoordTrans K) (l : List Ref) :
    (stableCorr Ok shapes c l : Corr K K L L D D F F X X).Core cfg cfg where
  labels := by rintro a b _ _ rfl rfl; rfl
  below := ⟨by rintro a _ rfl; rfl, by rintro a b _ _ rfl rfl _ _; rfl⟩
  reidBelow := .inr ⟨by rintro a _ rfl; rfl, by rintro a b _ _ rfl rfl _ _; rfl⟩
  top := rfl
  keptNone := .none
  keptSome := fun _ _ h => .some h
  scores := by rintro a _ rfl; rfl
  length := by rintro a _ rfl; rfl
  fill := .inl rfl
  reidFill := .inr (.inl rfl)
  filters :=
    { create := by
        intro p q h
        rw [ptsRel_eq h]
        exact ⟨(hL.create p h.len).1, rfl⟩
      dimZ := by rintro f _ ⟨_, rfl⟩; rfl
      predict := by
        rintro f _ ⟨ho, rfl⟩
        obtain ⟨p1, p2, _⟩ := hL.predict _ ho
        exact ⟨⟨p1, rfl⟩, p2⟩
      update := by
        rintro f _ z _ mask ⟨ho, rfl⟩ rfl hz hm
        obtain ⟨p1, p2⟩ := hL.update _ z mask ho hz hm
        exact ⟨⟨p1, rfl⟩, p2⟩
      positions := by
        rintro f _ ⟨ho, rfl⟩
        refine ⟨rfl, ?_⟩
        rw [List.length_take, hL.len _ ho]
        omega
      setX := by
        rintro _ f z _ m1 m2 ⟨ho, rfl⟩ rfl hz h1 h2
        have hx := hL.len _ ho
        obtain ⟨s1, s2, s3⟩ := hL.setX f (maskAssign m1 ((cfg.flt.getX f).take (cfg.flt.dimZ f)) z ++
            maskAssign m2 ((cfg.flt.getX f).drop (cfg.flt.dimZ f)) (List.replicate (cfg.flt.dimZ f) 0)) ho (by
          simp [hx]; omega)
        exact ⟨⟨s1, rfl⟩, s2⟩ }
  reid := by
    cases hf : cfg.reid with
    | none => exact .none
    | some f =>
      refine .some fun a b a' b' h1 h2 => ?_
      rw [hreid f hf _ _ _ _ (stable_view_same h1) (stable_view_same h2)]
      exact optRel_refl (fun x => optRel_refl (fun _ => rfl) x) _
  hitCounterMax := rfl
  initDelay := rfl
  pwMax := rfl
  pastLen := rfl
  reidMax := rfl

theorem stable_estimates {fo : FilterOps K F} {Ok : F → Prop} (hL : FilterLaws fo Ok) {shapes : Nat → Nat → Prop}
    {c : CoordTrans K} {l : List Ref} {o p : Obj K L D F}
    (h : (stableCorr Ok shapes c l : Corr K K L L D D F F X X).Objs o p) (hd : fo.dimZ o.filter = o.dimZ) :
    SeenBy fo c o p ∧ Shaped shapes (o.positions fo) := by
  have e := stable_obj_same h
  refine ⟨⟨e, ?_, ?_⟩, h.shape, ?_⟩
  · rw [e]
    unfold Obj.estimate
    rw [h.absToRel.1]
    rfl
  · rw [e]; rfl
  · show ((fo.getX o.filter).take o.dimZ).length = o.dimPoints * o.numPoints
    rw [List.length_take, hL.len _ h.filter.1, hd]
    unfold Obj.dimZ
    omega

/-- lists of corresponding arrays come from lists of points -/
theorem forall2_points {P : Pts K → Prop} {g h : Pts K → List K} {A B : List (List K)}
    (hAB : List.Forall₂ (fun x y => ∃ p, P p ∧ x = g p ∧ y = h p) A B) :
    ∃ l : List (Pts K), (∀ p ∈ l, P p) ∧ A = l.map g ∧ B = l.map h := by
  induction hAB with
  | nil => exact ⟨[], by simp, rfl, rfl⟩
  | cons hxy _ ih =>
    obtain ⟨p, hp, rfl, rfl⟩ := hxy
    obtain ⟨l, hl, rfl, rfl⟩ := ih
    exact ⟨p :: l, by simpa using ⟨hp, hl⟩, rfl, rfl⟩

theorem stable_distLaw {cfg : Cfg K L D F X} {Ok : F → Prop} (hL : FilterLaws cfg.flt Ok)
    {shapes : Nat → Nat → Prop} {c : CoordTrans K} (hT : Transparent cfg.flt shapes c cfg.dist) (l : List Ref) :
    DistLaw (stableCorr Ok shapes c l : Corr K K L L D D F F X X) cfg cfg (· ∈ l) := by
  intro h h' a b dets hh hab hd hG
  have hab' := forall2_and hab hd
  have hdd : List.Forall₂ (fun r r' : Ref => r' = r ∧ r ∈ l) dets dets :=
    List.forall₂_same.mpr (fun r hr => ⟨rfl, hG r hr⟩)
  have hpts : ∀ r ∈ l, Shaped shapes (h r).points ∧ (h' r).points = c.relToAbs (h r).points := by
    intro r hr
    obtain ⟨p1, p2, p3⟩ := (hh r).points hr
    exact ⟨p1, by rw [p3, ptsRel_eq (hh r).absPoints, p2]⟩
  unfold detDistances
  revert hT
  generalize cfg.dist = d
  intro hT
  cases hT with
  | points f hf =>
    apply scalarDistances_rel rfl hab' hdd
    · rintro r _ o p ⟨rfl, hr⟩ ⟨hop, _⟩
      rw [(show (h _).label = (h' _).label from (hh _).label), (show o.label = p.label from hop.label)]
    · rintro r _ o p ⟨rfl, hr⟩ ⟨hop, ho⟩ _
      obtain ⟨⟨_, e1, e2⟩, e3⟩ := stable_estimates hL hop ho
      show Option.Rel _ (f (h _).points (o.estimate cfg.flt)) (f (h' _).points (p.estimate cfg.flt))
      rw [(hpts _ hr).2, e1, ← e2, hf _ _ (hpts _ hr).1 e3]
      exact optRel_refl (fun x => optRel_refl (fun _ => rfl) x) _
  | vectorized str f hf =>
    apply vectorizedDistances_rel (Vc := fun x y => ∃ p, Shaped shapes p ∧ x = p.data ∧ y = (c.relToAbs p).data)
      (Vo := fun x y => ∃ q, Shaped shapes q ∧ x = (c.absToRel q).data ∧ y = q.data) rfl hab' hdd
    · rintro r _ o p ⟨rfl, hr⟩ ⟨hop, _⟩
      rw [(show (h _).label = (h' _).label from (hh _).label), (show o.label = p.label from hop.label)]
    · rintro r _ s _ ⟨rfl, hr⟩ ⟨rfl, hs⟩
      rw [(show (h _).label = (h' _).label from (hh _).label), (show (h _).label = (h' _).label from (hh _).label)]
    · rintro o p ⟨hop, ho⟩
      obtain ⟨⟨_, e1, e2⟩, e3⟩ := stable_estimates hL hop ho
      exact ⟨p.estimate cfg.flt, e2 ▸ e3, by rw [e1], rfl⟩
    · rintro r _ ⟨rfl, hr⟩
      exact ⟨_, (hpts _ hr).1, rfl, by rw [(hpts _ hr).2]⟩
    · intro A A' B B' hA hB
      obtain ⟨P, hP, rfl, rfl⟩ := forall2_points hA
      obtain ⟨Q, hQ, rfl, rfl⟩ := forall2_points hB
      rw [hf P Q hP hQ]
      exact optRel_refl (fun M i j _ _ => optRel_refl (fun _ => rfl) _) _

/-- one call on both sides -/
theorem stable_call {cfg : Cfg K L D F X} {Ok : F → Prop} (hL : FilterLaws cfg.flt Ok)
    (hreid : ∀ f, cfg.reid = some f → Absolute f) {shapes : Nat → Nat → Prop} {w v : World K L D F X}
    (h : (betweenCorr Ok shapes).Worlds w v) (hd : DimOk cfg.flt w) {l : List Ref} (hl : l.Nodup) (period : Int)
    {c : CoordTrans K} (hT : Transparent cfg.flt shapes c cfg.dist) {heap : Ref → Det K L X}
    (hs : ∀ r ∈ l, StableDet shapes c (w.heap r) (heap r)) (hn : ∀ r, r ∉ l → heap r = v.heap r) :
    (stableCorr Ok shapes c l).Worlds (update cfg w (some l) period (some c)).1
      (update cfg { v with heap := heap } (some l) period none).1 ∧
    (stableCorr Ok shapes c l : Corr K K L L D D F F X X).Outs (update cfg w (some l) period (some c)).2
      (update cfg { v with heap := heap } (some l) period none).2 := by
  refine updateCore_rel (stable_core hL hreid shapes c l) ⟨by rintro a _ rfl; rfl, by rintro a b _ _ rfl rfl; rfl⟩
    (stable_distLaw hL hT l) (B := fun _ h => h = none)
    (w := { w with heap := l.foldl (transformDet c) w.heap }) (v := { v with heap := heap })
    (ct := some c) (ct' := none) ⟨?_, h.gcount, h.count, h.initCount, ?_⟩ hd l (fun _ h => h) period
    (fun _ _ hh => ⟨rfl, hh⟩) ⟨rfl, rfl⟩
  · intro r
    have hrest := foldl_transform_rest c l w.heap r
    obtain ⟨f1, f2⟩ := foldl_transform_apply c l w.heap hl r
    have hf : l.foldl (transformDet c) w.heap r =
        { w.heap r with absPoints := if r ∈ l then c.relToAbs (w.heap r).absPoints else (w.heap r).absPoints } := by
      rw [hrest, f2]
    show Corr.Dets _ r (l.foldl (transformDet c) w.heap r) (heap r)
    rw [hf]
    by_cases hr : r ∈ l
    · obtain ⟨s1, s2, s3, s4⟩ := hs r hr
      rw [s4, if_pos hr, s3]
      exact ⟨fun _ => ⟨s1, rfl, rfl⟩, optRel_refl (fun x => List.forall₂_same.mpr fun _ _ => rfl) _, rfl, rfl,
        ⟨s2.1, rfl, rfl, s2.2, rfl⟩, rfl⟩
    · rw [hn r hr, if_neg hr]
      exact { h.heap r with points := fun hr' => absurd hr' hr }
  · exact h.objs.imp fun _ _ hop => { hop with }

theorem stable_weaken {Ok : F → Prop} {shapes : Nat → Nat → Prop} {c : CoordTrans K} {l : List Ref}
    {w v : World K L D F X} (h : (stableCorr Ok shapes c l).Worlds w v) : (betweenCorr Ok shapes).Worlds w v :=
  ⟨fun r => { h.heap r with points := trivial }, h.gcount, h.count, h.initCount,
    h.objs.imp fun _ _ hop => { hop with absToRel := hop.absToRel.2 }⟩

theorem Stabilized.reaches {cfg : Cfg K L D F X} {shapes : Nat → Nat → Prop} {shape : L → Nat × Nat}
    {T : CoordTrans K → Prop} {w v : World K L D F X} (h : Stabilized cfg shapes shape T w v) :
    ∃ w0 : World K L D F X, w0.Initial ∧ WfReaches cfg shape w0 w := by
  induction h with
  | @start w _ h0 _ _ _ => exact ⟨w, h0, .refl _⟩
  | call l period c _ _ _ hc _ _ ih =>
    obtain ⟨w0, h0, h⟩ := ih
    exact ⟨w0, h0, .call _ _ _ h hc⟩
  | env gcount _ he _ ih =>
    obtain ⟨w0, h0, h⟩ := ih
    exact ⟨w0, h0, .env _ _ h he trivial⟩

theorem Stabilized.worlds {cfg : Cfg K L D F X} {Ok : F → Prop} (hL : FilterLaws cfg.flt Ok)
    (hreid : ∀ f, cfg.reid = some f → Absolute f) {shapes : Nat → Nat → Prop} {shape : L → Nat × Nat}
    (hs : ∀ a b, Compat cfg a b → shape a = shape b) {T : CoordTrans K → Prop}
    (hT : ∀ c, T c → Transparent cfg.flt shapes c cfg.dist) {w v : World K L D F X}
    (h : Stabilized cfg shapes shape T w v) :
    (betweenCorr Ok shapes).Worlds w v ∧ DimOk cfg.flt w := by
  have hdim : DimOk cfg.flt w := by
    obtain ⟨w0, h0, hr⟩ := Stabilized.reaches h
    exact fun o ho => (WfReaches.pointsOk hL hs h0 hr o ho).dimZ
  refine ⟨?_, hdim⟩
  clear hdim
  induction h with
  | start h0 h0' hg hh =>
    refine ⟨fun r => sameDet_rel (hh r) r, hg, by rw [h0.2.1, h0'.2.1], by rw [h0.2.2, h0'.2.2], ?_⟩
    rw [h0.1, h0'.1]
    exact .nil
  | @call w1 _ _ l period c hp hc hl _ hst hn ih =>
    have hdim : DimOk cfg.flt w1 := by
      obtain ⟨w0, h0, hr⟩ := Stabilized.reaches hp
      exact fun o ho => (WfReaches.pointsOk hL hs h0 hr o ho).dimZ
    exact stable_weaken (stable_call hL hreid ih hdim hl period (hT c hc) hst hn).1
  | env gcount _ _ hh ih => exact ⟨fun r => sameDet_rel (hh r) r, rfl, ih.count, ih.initCount, ih.objs⟩

/-- **C83** in general: a distance for which it does not matter on which side coordinates are converted -/
theorem C83_stabilized {cfg : Cfg K L D F X} {Ok : F → Prop} (hL : FilterLaws cfg.flt Ok)
    (hreid : ∀ f, cfg.reid = some f → Absolute f) {shapes : Nat → Nat → Prop} {shape : L → Nat × Nat}
    (hs : ∀ a b, Compat cfg a b → shape a = shape b) {T : CoordTrans K → Prop}
    (hT : ∀ c, T c → Transparent cfg.flt shapes c cfg.dist) {w v : World K L D F X}
    (h : Stabilized cfg shapes shape T w v) {l : List Ref} (hl : l.Nodup) (period : Int) {c : CoordTrans K} (hc : T c)
    (hcall : CallOk shape l (some c) w.heap) {heap : Ref → Det K L X}
    (hst : ∀ r ∈ l, StableDet shapes c (w.heap r) (heap r)) (hn : ∀ r, r ∉ l → heap r = v.heap r) :
    Alike (SeenBy cfg.flt c) (update cfg w (some l) period (some c)).2
      (update cfg { v with heap := heap } (some l) period none).2 ∧
    List.Forall₂ (SeenBy cfg.flt c) (update cfg w (some l) period (some c)).1.objs
      (update cfg { v with heap := heap } (some l) period none).1.objs := by
  obtain ⟨hw, hd⟩ := Stabilized.worlds (Ok := Ok) hL hreid hs hT h
  obtain ⟨hw', ho⟩ := stable_call hL hreid hw hd hl period (hT c hc) hst hn
  have hdim := (Stabilized.worlds (Ok := Ok) hL hreid hs hT (.call l period c h hc hl hcall hst hn)).2
  have hm : ∀ {a b}, List.Forall₂ (stableCorr Ok shapes c l : Corr K K L L D D F F X X).Objs a b →
      (∀ o ∈ a, cfg.flt.dimZ o.filter = o.dimZ) → List.Forall₂ (SeenBy cfg.flt c) a b := by
    intro a b hab
    induction hab with
    | nil => exact fun _ => .nil
    | cons hop _ ih =>
      intro hall
      exact .cons (stable_estimates hL hop (hall _ (by simp))).1 (ih fun o ho => hall o (by simp [ho]))
  refine ⟨?_, hm hw'.objs hdim⟩
  have hsub : ∀ act, (update cfg w (some l) period (some c)).2 = .ok act →
      ∀ o ∈ act, o ∈ (update cfg w (some l) period (some c)).1.objs := by
    intro act he o hact
    obtain ⟨w0, h0, hr⟩ := Stabilized.reaches h
    have hre : Reachable cfg w := ⟨w0, h0, hr.mono (fun _ _ _ => trivial) (fun _ _ _ _ _ => trivial)⟩
    have := (update_ok hre.inv.nodup (show update cfg w (some l) period (some c) =
      ((update cfg w (some l) period (some c)).1, .ok act) from Prod.ext rfl he)).1
    rw [this] at hact
    exact (mem_activeObjects.mp hact).1
  revert ho hsub
  generalize (update cfg w (some l) period (some c)).2 = r
  generalize (update cfg { v with heap := heap } (some l) period none).2 = r'
  rintro (⟨e⟩ | hl) hsub
  · exact .error e
  · exact .ok (hm hl fun o ho => hdim o (hsub _ rfl o ho))

end

/-! ### Translations -/

theorem translation_aff {K : Type} [CommRing K] (v : List K) {N : Nat} (p : Pts K) (hp : p.dim = N) :
    (translation v).absToRel p = affPts (fun _ => 1) (fun k => v.getD (k % N) 0) p ∧
    affPts (fun _ => 1) (fun k => v.getD (k % N) 0) ((translation v).relToAbs p) = p := by
  constructor
  · unfold translation affPts
    simp only
    congr 1
    apply List.ext_getElem?
    intro k
    rw [aff_get, List.getElem?_mapIdx, hp]
    simp
  · obtain ⟨n, dim, d⟩ := p
    simp only at hp
    subst hp
    unfold translation affPts
    simp only
    congr 1
    apply List.ext_getElem?
    intro k
    rw [aff_get, List.getElem?_mapIdx]
    cases d[k]? <;> simp

/-- a distance that does not change when all points are moved by one vector -/
def Invariant (f : Pts ℝ → Pts ℝ → Option (Option ℝ)) : Prop :=
  ∀ (N : Nat) (β : Nat → ℝ) (p q : Pts ℝ), p.dim = N → q.dim = N → p.data.length = p.dim * p.n →
    q.data.length = q.dim * q.n →
    f (affPts (fun _ => 1) (shiftAxis N β) p) (affPts (fun _ => 1) (shiftAxis N β) q) = f p q

/-- **C83**: these distances do not change when all points are moved -/
theorem C83_invariant (height width : Nat) : Invariant frobenius ∧ Invariant meanEuclidean ∧
    Invariant meanManhattan ∧ Invariant (normalizedMeanEuclidean height width) := by
  have key : ∀ f, Scales f → Invariant f := by
    intro f hf N β p q hp hq lp lq
    rw [hf 1 N β p q hp hq lp lq]
    rcases f p q with _ | _ | _ <;> simp
  refine ⟨key _ C80_scales.1, key _ C80_scales.2.1, key _ C80_scales.2.2, ?_⟩
  intro N β p q hp hq lp lq
  have h := sub_aff (c := 1) (β := β) hp hq lp lq
  unfold normalizedMeanEuclidean
  revert h
  generalize p.mat.sub q.mat = A
  generalize (Mat.sub _ _ : Option (Mat ℝ)) = B
  rintro (⟨hr, hc, hv⟩ | _)
  swap
  · rfl
  rename_i x y
  simp only [Option.bind_some]
  rw [hr, hc]
  split
  · rfl
  · congr 1
    unfold meanOf
    split
    · rfl
    · congr 2
      refine Finset.sum_congr rfl fun i hi => ?_
      unfold Mat.rowNorm
      congr 1
      refine Finset.sum_congr rfl fun j hj => ?_
      simp only
      rw [hv i (Finset.mem_range.mp hi) j (Finset.mem_range.mp hj), one_mul]

/-- **C83** for `frobenius`, `mean_euclidean`, `mean_manhattan` and the normalized mean euclidean distance:
conversions by translations are transparent -/
theorem C83_points_transparent {fo : FilterOps ℝ F} {f : Pts ℝ → Pts ℝ → Option (Option ℝ)} (hf : Invariant f)
    (N : Nat) (v : List ℝ) :
    Transparent fo (fun _ dim => dim = N) (translation v) (ptsDistance fo f : DistFn ℝ L (WithTop ℝ) F X) := by
  refine Transparent.points (fun p q => (f p q).map (·.map fun x : ℝ => (x : WithTop ℝ))) ?_
  rintro p q ⟨hp, lp⟩ ⟨hq, lq⟩
  have hk : ((translation v).relToAbs p).data.length = p.data.length := by simp [translation]
  have := hf N (fun j => v.getD j 0) ((translation v).relToAbs p) q hp hq (by rw [hk]; exact lp) lq
  unfold shiftAxis at this
  rw [(translation_aff v p hp).2, ← (translation_aff v q hq).1] at this
  simp only [this]

/-- **C83** for `iou` -/
theorem C83_iou_transparent {K : Type} [Field K] [LinearOrder K] [IsStrictOrderedRing K] {fo : FilterOps K F}
    (str : L → String) (v : List K) :
    Transparent fo (fun _ dim => dim = 2) (translation v) (iouDistFn str : DistFn K L (WithTop K) F X) := by
  refine Transparent.vectorized str _ ?_
  intro A B hA hB
  have hax : ∀ k, v.getD (k % 2) 0 = perAxis (v.getD 0 0) (v.getD 1 0) k := by
    intro k
    unfold perAxis
    rcases Nat.mod_two_eq_zero_or_one k with h | h <;> simp [h]
  have hone : (fun _ : Nat => (1 : K)) = perAxis 1 1 := by funext k; unfold perAxis; split <;> rfl
  have h1 : List.Forall₂ (fun l m => m = aff (perAxis 1 1) (perAxis (v.getD 0 0) (v.getD 1 0)) l)
      (A.map fun p => ((translation v).relToAbs p).data) (A.map (·.data)) := by
    rw [List.forall₂_map_left_iff, List.forall₂_map_right_iff]
    refine List.forall₂_same.mpr fun p hp => ?_
    have := congrArg Pts.data (translation_aff v p (hA p hp).1).2
    simp only [affPts, hone] at this
    rw [← funext hax]
    exact this.symm
  have h2 : List.Forall₂ (fun l m => m = aff (perAxis 1 1) (perAxis (v.getD 0 0) (v.getD 1 0)) l)
      (B.map (·.data)) (B.map fun q => ((translation v).absToRel q).data) := by
    rw [List.forall₂_map_left_iff, List.forall₂_map_right_iff]
    refine List.forall₂_same.mpr fun q hq => ?_
    have := congrArg Pts.data (translation_aff v q (hB q hq).1).1
    simp only [affPts, hone] at this
    rw [← funext hax]
    exact this
  rw [iou_rel one_pos one_pos _ _ h1 h2]

/-- **C83**: the camera is moved by any translation before every call. With a distance between points (`frobenius`,
`mean_euclidean`, `mean_manhattan`, normalized mean euclidean), a tracker that is told the translations raises the
same exceptions and returns the same objects as a tracker that is given stabilized detections. -/
theorem C83_translations [DecidableEq L] {cfg : Cfg ℝ L (WithTop ℝ) F X} {Ok : F → Prop} (hL : FilterLaws cfg.flt Ok)
    (hreid : ∀ f, cfg.reid = some f → Absolute f) {f : Pts ℝ → Pts ℝ → Option (Option ℝ)} (hf : Invariant f)
    (hdist : cfg.dist = ptsDistance cfg.flt f) {N : Nat} {shape : L → Nat × Nat} {w v : World ℝ L (WithTop ℝ) F X}
    (h : Stabilized cfg (fun _ dim => dim = N) shape (fun c => ∃ v, c = translation v) w v)
    {l : List Ref} (hl : l.Nodup) (period : Int) (m : List ℝ)
    (hcall : CallOk shape l (some (translation m)) w.heap) {heap : Ref → Det ℝ L X}
    (hst : ∀ r ∈ l, StableDet (fun _ dim => dim = N) (translation m) (w.heap r) (heap r))
    (hn : ∀ r, r ∉ l → heap r = v.heap r) :
    Alike (SeenBy cfg.flt (translation m)) (update cfg w (some l) period (some (translation m))).2
      (update cfg { v with heap := heap } (some l) period none).2 ∧
    List.Forall₂ (SeenBy cfg.flt (translation m)) (update cfg w (some l) period (some (translation m))).1.objs
      (update cfg { v with heap := heap } (some l) period none).1.objs := by
  refine C83_stabilized hL hreid (fun a b hab => ?_) ?_ h hl period ⟨m, rfl⟩ hcall hst hn
  · unfold Compat at hab
    rw [hdist] at hab
    simp only [ptsDistance] at hab
    rw [hab]
  · rintro _ ⟨v, rfl⟩
    rw [hdist]
    exact C83_points_transparent hf N v

/-- **C83** for `iou` (boxes are two points of the plane) -/
theorem C83_iou {K : Type} [Field K] [LinearOrder K] [IsStrictOrderedRing K] [DecidableEq L]
    {cfg : Cfg K L (WithTop K) F X} {Ok : F → Prop} (hL : FilterLaws cfg.flt Ok)
    (hreid : ∀ f, cfg.reid = some f → Absolute f) {str : L → String} (hdist : cfg.dist = iouDistFn str)
    {shape : L → Nat × Nat} (hsh : ∀ a b, str a = str b → shape a = shape b) {w v : World K L (WithTop K) F X}
    (h : Stabilized cfg (fun _ dim => dim = 2) shape (fun c => ∃ v, c = translation v) w v)
    {l : List Ref} (hl : l.Nodup) (period : Int) (m : List K)
    (hcall : CallOk shape l (some (translation m)) w.heap) {heap : Ref → Det K L X}
    (hst : ∀ r ∈ l, StableDet (fun _ dim => dim = 2) (translation m) (w.heap r) (heap r))
    (hn : ∀ r, r ∉ l → heap r = v.heap r) :
    Alike (SeenBy cfg.flt (translation m)) (update cfg w (some l) period (some (translation m))).2
      (update cfg { v with heap := heap } (some l) period none).2 ∧
    List.Forall₂ (SeenBy cfg.flt (translation m)) (update cfg w (some l) period (some (translation m))).1.objs
      (update cfg { v with heap := heap } (some l) period none).1.objs := by
  refine C83_stabilized hL hreid (fun a b hab => hsh a b ?_) ?_ h hl period ⟨m, rfl⟩ hcall hst hn
  · unfold Compat at hab
    rw [hdist] at hab
    exact hab
  · rintro _ ⟨v, rfl⟩
    rw [hdist]
    exact C83_iou_transparent str v

/-! ### Other transformations, examples -/

/-- the stabilized versions of the detections `l`, other detections as they were -/
def stab (c : CoordTrans K) (l : List Ref) (heap heap' : Ref → Det K L X) : Ref → Det K L X := fun r =>
  if r ∈ l then
    { heap r with points := c.relToAbs (heap r).points, absPoints := c.relToAbs (heap r).points }
  else heap' r

theorem stab_stable {shapes : Nat → Nat → Prop} {c : CoordTrans K} {l : List Ref} {heap heap' : Ref → Det K L X}
    (h1 : ∀ r ∈ l, Shaped shapes (heap r).points ∧ Shaped shapes (c.relToAbs (heap r).points))
    (h2 : ∀ r ∈ l, (heap r).absPoints = (heap r).points) :
    (∀ r ∈ l, StableDet shapes c (heap r) (stab c l heap heap' r)) ∧ ∀ r, r ∉ l → stab c l heap heap' r = heap' r := by
  refine ⟨fun r hr => ⟨(h1 r hr).1, (h1 r hr).2, h2 r hr, ?_⟩, fun r hr => ?_⟩
  · unfold stab; rw [if_pos hr]
  · unfold stab; rw [if_neg hr]

section examples

/-- the matrix of a camera that zooms in by a factor of 2 -/
def zoomMatrix : Matrix (Fin 3) (Fin 3) ℚ := !![2, 0, 0; 0, 2, 0; 0, 0, 1]

/-- the transformation with this matrix -/
def zoom : CoordTrans ℚ where
  absToRel := fun p => { p with data := unpairs ((pairs p.data).map (projective zoomMatrix)) }
  relToAbs := fun p => { p with data := unpairs ((pairs p.data).map (projective !![1/2, 0, 0; 0, 1/2, 0; 0, 0, 1])) }

theorem zoom_homography : homography zoomMatrix = some zoom := by
  have h1 : zoomMatrix * !![1/2, 0, 0; 0, 1/2, 0; 0, 0, 1] = 1 := by
    unfold zoomMatrix
    ext i j
    fin_cases i <;> fin_cases j <;> simp [Matrix.mul_apply, Fin.sum_univ_three]
  have h2 : zoomMatrix⁻¹ = !![1/2, 0, 0; 0, 1/2, 0; 0, 0, 1] := Matrix.inv_eq_right_inv h1
  have h3 : zoomMatrix.det ≠ 0 := by
    intro h
    have := congrArg Matrix.det h1
    rw [Matrix.det_mul, h, zero_mul, Matrix.det_one] at this
    exact zero_ne_one this
  unfold homography
  rw [if_neg h3, h2]
  rfl

/-- the sum of the absolute differences of two coordinates -/
def cityBlock (p q : Pts ℚ) : Option (Option (WithTop ℚ)) :=
  match p.data, q.data with
  | [a, b], [x, y] => some (some ((|a - x| + |b - y| : ℚ) : WithTop ℚ))
  | _, _ => none

def zoomCfg : Cfg ℚ Nat (WithTop ℚ) (NoFilter ℚ) Unit where
  dist := ofPoints noFilterOps cityBlock
  thr := ((3 : ℚ) : WithTop ℚ)
  fill := ((4 : ℚ) : WithTop ℚ)
  hitCounterMax := 4
  initDelay := 1
  pwMax := 4
  detThr := 0
  flt := noFilterOps
  pastLen := 2
  reid := none
  reidThr := 0
  reidFill := 1
  reidMax := none

/-- detection `r` is seen at `(r, 0)` -/
def zoomHeap : Ref → Det ℚ Nat Unit := fun r => ⟨⟨1, 2, [r, 0]⟩, none, 0, (), ⟨1, 2, [r, 0]⟩, none⟩

/-- the tracker that knows about zooming, after a call with a detection at `(0, 0)` -/
def zoomed : World ℚ Nat (WithTop ℚ) (NoFilter ℚ) Unit :=
  (update zoomCfg ⟨zoomHeap, 0, 0, 0, []⟩ (some [0]) 1 (some zoom)).1

/-- the other tracker after the same call -/
def unzoomed : World ℚ Nat (WithTop ℚ) (NoFilter ℚ) Unit :=
  (update zoomCfg ⟨stab zoom [0] zoomHeap zoomHeap, 0, 0, 0, []⟩ (some [0]) 1 none).1

theorem zoomed_stabilized :
    Stabilized zoomCfg (fun _ dim => dim = 2) (fun _ => (1, 2)) (fun c => c = zoom) zoomed unzoomed := by
  refine Stabilized.call (w := ⟨zoomHeap, 0, 0, 0, []⟩) (v := ⟨zoomHeap, 0, 0, 0, []⟩) [0] 1 zoom
    (.start ⟨rfl, rfl, rfl⟩ ⟨rfl, rfl, rfl⟩ rfl fun r => ⟨⟨rfl, rfl⟩, rfl⟩) rfl (by decide)
    ⟨?_, ?_⟩ (stab_stable ?_ ?_).1 (stab_stable (shapes := fun _ dim => dim = 2) ?_ ?_).2
  · rintro c hc
    injection hc with hc
    subst hc
    exact C45_keeps_shape zoom_homography fun _ => rfl
  · intro r _
    exact ⟨rfl, rfl, rfl, by intro s hs; cases hs⟩
  · intro r hr
    simp only [List.mem_singleton] at hr
    subst hr
    exact ⟨⟨rfl, rfl⟩, rfl, by decide +kernel⟩
  · intro r hr; rfl
  · intro r hr
    simp only [List.mem_singleton] at hr
    subst hr
    exact ⟨⟨rfl, rfl⟩, rfl, by decide +kernel⟩
  · intro r hr; rfl

/-- **C83** fails for homographies, whatever the distance between points: zooming changes distances. The tracker that
knows about zooming compares relative coordinates; it finds the distance 4 between the detection at `(4, 0)` and
the object, and creates a new object. The tracker that is given stabilized detections finds the distance 2. -/
theorem C83_zoom : homography zoomMatrix = some zoom ∧
    Stabilized zoomCfg (fun _ dim => dim = 2) (fun _ => (1, 2)) (fun c => c = zoom) zoomed unzoomed ∧
    (update zoomCfg zoomed (some [4]) 1 (some zoom)).1.objs.length = 2 ∧
    (update zoomCfg { unzoomed with heap := stab zoom [4] zoomed.heap unzoomed.heap } (some [4]) 1 none).1.objs.length
      = 1 :=
  ⟨zoom_homography, zoomed_stabilized, by decide +kernel, by decide +kernel⟩

/-- movement of the camera when detection `r` is seen -/
def camera (r : Ref) : List ℚ := if r % 10 = 0 then [0, 0] else if r % 10 = 1 then [100, -30] else [-20, 45]

/-- box `r` as seen by this camera -/
def seenHeap : Ref → Det ℚ Nat Unit :=
  fun r => planar ((boxes r).mapIdx fun k x => x + (camera r).getD (k % 2) 0) 0

/-- the tracker that is told the movements, after calls with two boxes each -/
def moved1 : World ℚ Nat (WithTop ℚ) (OKF ℚ) Unit :=
  (update unitsCfg ⟨seenHeap, 0, 0, 0, []⟩ (some [0, 50]) 1 (some (translation (camera 0)))).1

def moved2 : World ℚ Nat (WithTop ℚ) (OKF ℚ) Unit :=
  (update unitsCfg moved1 (some [1, 51]) 1 (some (translation (camera 1)))).1

/-- the tracker that is given stabilized boxes -/
def still1 : World ℚ Nat (WithTop ℚ) (OKF ℚ) Unit :=
  (update unitsCfg ⟨stab (translation (camera 0)) [0, 50] seenHeap seenHeap, 0, 0, 0, []⟩ (some [0, 50]) 1 none).1

def still2 : World ℚ Nat (WithTop ℚ) (OKF ℚ) Unit :=
  (update unitsCfg { still1 with heap := stab (translation (camera 1)) [1, 51] moved1.heap still1.heap }
    (some [1, 51]) 1 none).1

/-- what a call needs, if it can be computed -/
theorem boxes_call {w : World ℚ Nat (WithTop ℚ) (OKF ℚ) Unit} {l : List Ref} {m : List ℚ}
    (h : ∀ r ∈ l, (w.heap r).scores = none ∧ (w.heap r).absPoints = (w.heap r).points ∧ (w.heap r).points.n = 2 ∧
      (w.heap r).points.dim = 2 ∧ (w.heap r).points.data.length = 4) (heap' : Ref → Det ℚ Nat Unit) :
    CallOk (fun _ => (2, 2)) l (some (translation m)) w.heap ∧
    (∀ r ∈ l, StableDet (fun _ dim => dim = 2) (translation m) (w.heap r) (stab (translation m) l w.heap heap' r)) ∧
    ∀ r, r ∉ l → stab (translation m) l w.heap heap' r = heap' r := by
  refine ⟨⟨fun c hc => ?_, fun r hr => ?_⟩, stab_stable (fun r hr => ?_) fun r hr => (h r hr).2.1⟩
  · injection hc with hc
    subst hc
    exact C44_keeps_shape _ _
  · obtain ⟨h1, h2, h3, h4, h5⟩ := h r hr
    exact ⟨by rw [h2]; exact h3, by rw [h2]; exact h4, by rw [h2, h3, h4, h5], by rw [h1]; intro s hs; cases hs⟩
  · obtain ⟨h1, h2, h3, h4, h5⟩ := h r hr
    refine ⟨⟨h4, by rw [h3, h4, h5]⟩, h4, ?_⟩
    show ((w.heap r).points.data.mapIdx _).length = (w.heap r).points.dim * (w.heap r).points.n
    rw [List.length_mapIdx, h3, h4, h5]

theorem moved_stabilized : Stabilized unitsCfg (fun _ dim => dim = 2) (fun _ => (2, 2))
    (fun c => ∃ v, c = translation v) moved2 still2 := by
  have h1 := boxes_call (w := ⟨seenHeap, 0, 0, 0, []⟩) (l := [0, 50]) (m := camera 0) (by decide +kernel) seenHeap
  have h2 := boxes_call (w := moved1) (l := [1, 51]) (m := camera 1) (by decide +kernel) still1.heap
  refine Stabilized.call (w := moved1) (v := still1) [1, 51] 1 (translation (camera 1)) ?_ ⟨_, rfl⟩ (by decide)
    h2.1 h2.2.1 h2.2.2
  exact Stabilized.call (w := ⟨seenHeap, 0, 0, 0, []⟩) (v := ⟨seenHeap, 0, 0, 0, []⟩) [0, 50] 1
    (translation (camera 0)) (.start ⟨rfl, rfl, rfl⟩ ⟨rfl, rfl, rfl⟩ rfl fun r => ⟨⟨rfl, by simp [seenHeap, planar, boxes]⟩, rfl⟩)
    ⟨_, rfl⟩ (by decide) h1.1 h1.2.1 h1.2.2

/-- C83: a third call with one box, seen by a camera that has moved back -/
example : Alike (SeenBy unitsCfg.flt (translation (camera 2)))
    (update unitsCfg moved2 (some [2]) 1 (some (translation (camera 2)))).2
    (update unitsCfg { still2 with heap := stab (translation (camera 2)) [2] moved2.heap still2.heap } (some [2]) 1
      none).2 := by
  have h := boxes_call (w := moved2) (l := [2]) (m := camera 2) (by decide +kernel) still2.heap
  exact (C83_iou (okf_laws okfDefaults) (by intro f hf; cases hf) (str := fun _ => "") rfl (fun _ _ _ => rfl)
    moved_stabilized (by decide) 1 _ h.1 h.2.1 h.2.2).1

/-- the objects in that example, and what a tracker that is not told the movements makes of the boxes -/
example : (update unitsCfg moved2 (some [2]) 1 (some (translation (camera 2)))).1.objs.map
      (fun o => (o.id, o.hitCounter)) = [(some 1, 3), (some 2, 1)] ∧
    (runs unitsCfg ⟨seenHeap, 0, 0, 0, []⟩ [[0, 50], [1, 51], [2]]).objs.map (fun o => o.id) =
      [none, none, none, none, none] := by decide +kernel

end examples

end Norfair.Props
