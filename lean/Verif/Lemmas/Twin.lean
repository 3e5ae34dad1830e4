import Verif.Spec.Twin
import Verif.Lemmas.Rounds
import Verif.Lemmas.ParamFilters
import Verif.Props.TrackerRounds

/-! Two trackers with the same arguments apart from arithmetic. -/

set_option linter.unusedSectionVars false

namespace Norfair

open Spec Norfair.Props

variable {K K' L D D' F F' X X' : Type}

section
variable [LinearOrder K] [Zero K] [LinearOrder D] [OrderTop D] [Zero D] [DecidableEq L]

theorem filter_alive (cfg : Cfg K L D F X) (w : World K L D F X) (p : Obj K L D F → Bool) (b : Bool)
    (hpb : ∀ o : Obj K L D F, p o = decide (o.isInit = b)) :
    (w.objs.filter (fun o => decide (CanMatch cfg.reidMax o))).filter p = roundObjs cfg w b := by
  unfold roundObjs
  rw [List.filter_filter]
  apply List.filter_congr
  intro o _
  rw [hpb, Bool.decide_and, Bool.and_comm]

theorem alive_survives {cfg : Cfg K L D F X} {w : World K L D F X} {o : Obj K L D F}
    (ho : o ∈ w.objs.filter (fun o => decide (CanMatch cfg.reidMax o))) : o ∈ survivors cfg w.objs := by
  rw [List.mem_filter, decide_eq_true_eq] at ho
  exact ((canMatch_iff ho.1).mp ho.2).1

/-- the objects compared in the first round -/
theorem first_round_objs {cfg : Cfg K L D F X} {ct : Option (CoordTrans K)} {w : World K L D F X}
    (hn : w.keys.Nodup) :
    (advance cfg ct w).objects ((advance cfg ct w).keysWhere (aliveKeys cfg w.objs) (fun o => !o.isInit)) =
      compared cfg ct w.objs false := by
  have h := keysWhere_eq (w := w) (v := advance cfg ct w)
    (objs := w.objs.filter (fun o => decide (CanMatch cfg.reidMax o))) (g := stepped cfg ct)
    (fun o => !o.isInit) (by intro o; simp)
    (fun o ho _ => find_advance hn (alive_survives ho))
    (fun o ho hp o' ho' => by
      rw [find_advance hn (alive_survives ho)] at ho'
      cases ho'
      simpa using hp)
  rw [filter_alive cfg w (fun o => !o.isInit) false (by intro o; cases o.isInit <;> rfl), ← aliveKeys_eq] at h
  exact h.2

/-- the objects compared in the second round, if the first one succeeds -/
theorem second_round_objs {cfg : Cfg K L D F X} {ct : Option (CoordTrans K)} {w : World K L D F X}
    (hn : w.keys.Nodup) {period : Int} {dets : List Ref} {w1 : World K L D F X} {out1 : StageOut Ref}
    (hs : stageDet cfg period (advance cfg ct w)
      ((advance cfg ct w).keysWhere (aliveKeys cfg w.objs) (fun o => !o.isInit)) dets = (w1, .ok out1)) :
    w1.objects (w1.keysWhere (aliveKeys cfg w.objs) (fun o => o.isInit)) = compared cfg ct w.objs true ∧
    AgesOnly w.heap w1.heap ∧ w1.keys.Nodup ∧ ∀ r ∈ out1.unmatchedC, r ∈ dets := by
  have hk0 : (advance cfg ct w).keys = (survivors cfg w.objs).map (·.initId) := advance_keys cfg ct w
  have hn0 : ((survivors cfg w.objs).map (·.initId)).Nodup :=
    ((survivors_sublist cfg w.objs).map _).nodup hn
  have haliveN : (aliveKeys cfg w.objs).Nodup := by
    unfold aliveKeys
    split
    · exact hn0
    · exact (List.filter_sublist.map _).nodup hn0
  have hks1n : ((advance cfg ct w).keysWhere (aliveKeys cfg w.objs) (fun o => !o.isInit)).Nodup := by
    unfold World.keysWhere; exact haliveN.filter _
  obtain ⟨m1, S1, n1, sub1, perm1, mo1, un1, uo1, same1⟩ :=
    stageDet_ok cfg period (advance cfg ct w) _ hks1n dets
      (by intro k hk; rw [hk0]; exact aliveKeys_sub _ _ (World.mem_keysWhere.mp hk).1) hs
  refine ⟨?_, S1.heap, by rw [S1.keys, hk0]; exact hn0, (stageDet_out_sub cfg period _ _ _ hs).1⟩
  have h := keysWhere_eq (w := w) (v := w1)
    (objs := w.objs.filter (fun o => decide (CanMatch cfg.reidMax o))) (g := stepped cfg ct)
    (fun o => o.isInit) (by intro o; simp)
    (fun o ho hp => by
      apply same1 _ _ (find_advance hn (alive_survives ho))
      intro hx
      obtain ⟨_, p, hp', hpi⟩ := World.mem_keysWhere.mp hx
      rw [find_advance hn (alive_survives ho)] at hp'
      cases hp'
      simp [hp] at hpi)
    (fun o ho hp o' ho' => by
      obtain ⟨q, hq, hcase⟩ := S1.fate _ _ (find_advance hn (alive_survives ho))
      rw [ho'] at hq
      cases hq
      rcases hcase with ⟨_, v, rfl⟩ | ⟨r, v, _, hh⟩
      · simpa using hp
      · obtain ⟨hp', g, c, d, _, _, _, _, rfl⟩ := hh
        exact (hitObj_basic cfg hp' g c _ r period).2.2 (by simpa using hp))
  rw [filter_alive cfg w (fun o => o.isInit) true (by intro o; cases o.isInit <;> rfl), ← aliveKeys_eq] at h
  exact h.2

end

/-- the correspondence of two such trackers -/
def twinCorr (fo : FilterOps K F) (go : FilterOps K' F') (Ok : F → Prop) (Ok' : F' → Prop) [LT K] [LT K']
    (thr : K) (thr' : K') (Q : D → D' → Prop) : Corr K K' L L D D' F F' X X' where
  shape := fun _ _ => True
  vec := fun l m => m.length = l.length
  score := fun s t => thr < s ↔ thr' < t
  label := Eq
  dist := Q
  kept := fun _ _ => True
  filter := fun f g => Ok f ∧ Ok' g ∧ go.dimZ g = fo.dimZ f
  extra := fun _ _ => True
  pts := fun _ p _ q _ => PtsRel (fun _ _ => True) (fun l m => m.length = l.length) p q
  back := FunsRel (fun _ _ => True) (fun l m => m.length = l.length)

section
variable [LinearOrder K] [Zero K] [LinearOrder D] [OrderTop D] [Zero D] [DecidableEq L]
  [LinearOrder K'] [Zero K'] [LinearOrder D'] [OrderTop D'] [Zero D']
  {cfg : Cfg K L D F X} {cfg' : Cfg K' L D' F' X'} {Ok : F → Prop} {Ok' : F' → Prop} {Q Q' : D → D' → Prop}

theorem filterLaws_dims {fo : FilterOps K F} {Ok : F → Prop} (h : FilterLaws fo Ok) : FilterDims fo Ok :=
  ⟨h.len, fun p hp => ⟨(h.create p hp).1, (h.create p hp).2.1⟩, fun f hf => ⟨(h.predict f hf).1, (h.predict f hf).2.1⟩,
    h.update, fun f x hf hx => ⟨(h.setX f x hf hx).1, (h.setX f x hf hx).2.1⟩⟩

theorem twin_filters {fo : FilterOps K F} {go : FilterOps K' F'} (hL : FilterDims fo Ok) (hL' : FilterDims go Ok')
    (thr : K) (thr' : K') :
    (twinCorr fo go Ok Ok' thr thr' Q : Corr K K' L L D D' F F' X X').Filters fo go where
  create := by
    intro p q h
    have hv : q.data.length = p.data.length := h.vec
    have hq : q.data.length = q.dim * q.n := by rw [hv, h.len, h.n, h.dim]
    exact ⟨(hL.create p h.len).1, (hL'.create q hq).1, by
      rw [(hL.create p h.len).2, (hL'.create q hq).2, h.n, h.dim]⟩
  dimZ := fun f g h => h.2.2
  predict := by
    rintro f g ⟨h1, h2, h3⟩
    refine ⟨⟨(hL.predict f h1).1, (hL'.predict g h2).1, ?_⟩, (hL.predict f h1).2⟩
    rw [(hL.predict f h1).2, (hL'.predict g h2).2, h3]
  update := by
    rintro f g z z' mask ⟨h1, h2, h3⟩ hz hl hm
    have hz' : z'.length = go.dimZ g := by rw [h3, ← hl]; exact hz
    obtain ⟨a1, a2⟩ := hL.update f z mask h1 hl hm
    obtain ⟨b1, b2⟩ := hL'.update g z' mask h2 hz' (by rw [hm, h3])
    exact ⟨⟨a1, b1, by rw [a2, b2, h3]⟩, a2⟩
  positions := by
    rintro f g ⟨h1, h2, h3⟩
    have := hL.len f h1
    have h' := hL'.len g h2
    refine ⟨?_, ?_⟩
    · show List.length _ = List.length _
      rw [List.length_take, List.length_take]; omega
    · rw [List.length_take]; omega
  setX := by
    rintro f g z z' m1 m2 ⟨h1, h2, h3⟩ hz hl hm1 hm2
    have hx := hL.len f h1
    have hx' := hL'.len g h2
    have hz' : z'.length = fo.dimZ f := by rw [← hl]; exact hz
    have e1 : (maskAssign m1 ((fo.getX f).take (fo.dimZ f)) z ++
        maskAssign m2 ((fo.getX f).drop (fo.dimZ f)) (List.replicate (fo.dimZ f) 0)).length = 2 * fo.dimZ f := by
      rw [List.length_append, maskAssign_length',
        maskAssign_length']
      simp; omega
    have e2 : (maskAssign m1 ((go.getX g).take (fo.dimZ f)) z' ++
        maskAssign m2 ((go.getX g).drop (fo.dimZ f)) (List.replicate (fo.dimZ f) 0)).length = 2 * go.dimZ g := by
      rw [List.length_append, maskAssign_length',
        maskAssign_length']
      simp; omega
    obtain ⟨a1, a2⟩ := hL.setX f _ h1 e1
    obtain ⟨b1, b2⟩ := hL'.setX g _ h2 e2
    exact ⟨⟨a1, b1, by rw [a2, b2, h3]⟩, a2⟩

/-- corresponding states do not depend on which distances correspond -/
theorem twin_worlds {fo : FilterOps K F} {go : FilterOps K' F'} {thr : K} {thr' : K'} {w : World K L D F X}
    {v : World K' L D' F' X'} (h : (twinCorr fo go Ok Ok' thr thr' Q).Worlds w v) :
    (twinCorr fo go Ok Ok' thr thr' Q').Worlds w v :=
  ⟨fun r => { h.heap r with }, h.gcount, h.count, h.initCount, h.objs.imp fun _ _ h => { h with }⟩

theorem twin_core (hL : FilterDims cfg.flt Ok) (hL' : FilterDims cfg'.flt Ok') (hA : SameArgs cfg cfg')
    (hQ : Below Q cfg.thr cfg'.thr) (htop : Q ⊤ ⊤) :
    (twinCorr cfg.flt cfg'.flt Ok Ok' cfg.detThr cfg'.detThr Q : Corr K K' L L D D' F F' X X').Core cfg cfg' where
  labels := by rintro a b _ _ rfl rfl; rfl
  below := hQ
  reidBelow := .inl hA.reid
  top := htop
  keptNone := trivial
  keptSome := fun _ _ _ => trivial
  scores := fun _ _ h => h
  length := fun _ _ h => h
  fill := .inr ⟨hA.fill, hA.fill'⟩
  reidFill := .inl hA.reid
  filters := twin_filters hL hL' _ _
  reid := by rw [hA.reid, hA.reid']; exact .none
  hitCounterMax := hA.hitCounterMax
  initDelay := hA.initDelay
  pwMax := hA.pwMax
  pastLen := hA.pastLen
  reidMax := hA.reidMax

/-- one round of comparisons -/
theorem twin_distances {f : Det K L X → ObjView K L D F X → Option (Option D)}
    {g : Det K' L X' → ObjView K' L D' F' X' → Option (Option D')} (hf : cfg.dist = .scalar f)
    (hg : cfg'.dist = .scalar g) (htop : Q ⊤ ⊤) {w : World K L D F X} {v : World K' L D' F' X'}
    {ct : Option (CoordTrans K)} {ct' : Option (CoordTrans K')} {dets : List Ref}
    (hC : Compare cfg cfg' f g Q w v w.heap v.heap dets ct ct') {h : Ref → Det K L X} {h' : Ref → Det K' L X'}
    {R : Corr K K' L L D D' F F' X X'} (hlab : R.label = Eq)
    (ha : Aged w.heap h) (ha' : Aged v.heap h') (hh : R.Heaps h h') {b : Bool}
    (hobj : List.Forall₂ R.Objs (compared cfg ct w.objs b) (compared cfg' ct' v.objs b)) {rest : List Ref}
    (hrest : ∀ r ∈ rest, r ∈ dets) :
    Option.Rel (MatRel (Option.Rel Q)) (detDistances cfg h (compared cfg ct w.objs b) rest)
      (detDistances cfg' h' (compared cfg' ct' v.objs b) rest) := by
  unfold detDistances
  rw [hf, hg]
  simp only
  have h1 : List.Forall₂ (fun o p => (R.Objs o p ∧ o ∈ compared cfg ct w.objs b) ∧ p ∈ compared cfg' ct' v.objs b)
      (compared cfg ct w.objs b) (compared cfg' ct' v.objs b) :=
    (forall2_and (forall2_and hobj fun _ h => h).flip fun _ h => h).flip
  have hdd : List.Forall₂ (fun r r' : Ref => r' = r ∧ r ∈ rest) rest rest := List.forall₂_same.mpr (fun r hr => ⟨rfl, hr⟩)
  have hl : ∀ (c c' : Ref) (o : Obj K L D F) (p : Obj K' L D' F'), (c' = c ∧ c ∈ rest) →
      ((R.Objs o p ∧ o ∈ compared cfg ct w.objs b) ∧ p ∈ compared cfg' ct' v.objs b) →
      ((h c).label = o.label ↔ (h' c').label = p.label) := by
    rintro _ c o p ⟨rfl, _⟩ ⟨⟨hop, _⟩, _⟩
    have e1 := (hh c).label
    have e2 := hop.label
    rw [hlab] at e1 e2
    rw [e1, e2]
  have hmap : ∀ (c c' : Ref) (o : Obj K L D F) (p : Obj K' L D' F'), (c' = c ∧ c ∈ rest) →
      ((R.Objs o p ∧ o ∈ compared cfg ct w.objs b) ∧ p ∈ compared cfg' ct' v.objs b) → (h c).label = o.label →
      Option.Rel (Option.Rel Q) (f (h c) (o.view h)) (g (h' c') (p.view h')) := by
    rintro _ c o p ⟨rfl, hc⟩ ⟨⟨hop, ho⟩, hp⟩ hlb
    obtain ⟨o0, ho0, rfl⟩ := List.mem_map.mp ho
    obtain ⟨p0, hp0, rfl⟩ := List.mem_map.mp hp
    obtain ⟨ho1, ho2⟩ := List.mem_filter.mp ho0
    obtain ⟨hp1, hp2⟩ := List.mem_filter.mp hp0
    refine hC c (hrest c hc) o0 ho1 p0 hp1 ?_ (of_decide_eq_true ho2).1 ?_ h h' ha ha' (fun s => (hh s).age)
    · have := hop.initId
      cases ct <;> cases ct' <;> exact this
    · obtain ⟨a, e⟩ := ha c
      rw [e] at hlb
      cases ct <;> exact hlb
  exact scalarDistances_rel htop h1 hdd hl hmap

theorem AgesOnly.aged {h h' : Ref → Det K L X} (ha : AgesOnly h h') : Aged h h' := fun r => (ha r).1

theorem twin_obj {fo : FilterOps K F} {go : FilterOps K' F'} {thr : K} {thr' : K'} {o : Obj K L D F}
    {p : Obj K' L D' F'} (h : (twinCorr fo go Ok Ok' thr thr' Q : Corr K K' L L D D' F F' X X').Objs o p) :
    TwinObj o p :=
  { initId := h.initId, id := h.id, globalId := h.globalId, hitCounter := h.hitCounter,
    reidHitCounter := h.reidHitCounter, age := h.age, isInit := h.isInit, label := h.label.symm, lastDet := h.lastDet,
    past := h.past, pointHits := h.pointHits, once := h.once }

/-- one call after the detections have been transformed -/
theorem twin_core_call (hL : FilterLaws cfg.flt Ok) (hL' : FilterDims cfg'.flt Ok') (hA : SameArgs cfg cfg')
    {f : Det K L X → ObjView K L D F X → Option (Option D)}
    {g : Det K' L X' → ObjView K' L D' F' X' → Option (Option D')} (hf : cfg.dist = .scalar f)
    (hg : cfg'.dist = .scalar g) (hQ : Below Q cfg.thr cfg'.thr) {w : World K L D F X} {v : World K' L D' F' X'}
    (hn : w.keys.Nodup) (hd : DimOk cfg.flt w)
    (h : (twinCorr cfg.flt cfg'.flt Ok Ok' cfg.detThr cfg'.detThr Q').Worlds w v) {dets : List Ref} (period : Int)
    {ct : Option (CoordTrans K)} {ct' : Option (CoordTrans K')} (hct : ShapelyTrans ct ct')
    (hC : Compare cfg cfg' f g Q w v w.heap v.heap dets ct ct') :
    (twinCorr cfg.flt cfg'.flt Ok Ok' cfg.detThr cfg'.detThr Q').Worlds (updateCore cfg w dets period ct).1
      (updateCore cfg' v dets period ct').1 ∧
    Alike TwinObj (updateCore cfg w dets period ct).2 (updateCore cfg' v dets period ct').2 := by
  let Q1 : D → D' → Prop := fun a x => Q a x ∨ (a = ⊤ ∧ x = ⊤)
  have htop : Q1 ⊤ ⊤ := .inr ⟨rfl, rfl⟩
  have hQ1 : Below Q1 cfg.thr cfg'.thr := by
    refine ⟨?_, ?_⟩
    · rintro a x (h | ⟨rfl, rfl⟩)
      · exact hQ.thr _ _ h
      · simp
    · rintro a b x y (h | ⟨rfl, rfl⟩) (h' | ⟨rfl, rfl⟩) ha hb
      · exact hQ.lt _ _ _ _ h h' ha hb
      · simp at hb
      · simp at ha
      · simp at ha
  have hC1 : Compare cfg cfg' f g Q1 w v w.heap v.heap dets ct ct' := by
    intro r hr o ho p hp e1 e2 e3 h h' a1 a2 a3
    have := hC r hr o ho p hp e1 e2 e3 h h' a1 a2 a3
    revert this
    generalize f (h r) _ = a
    generalize g (h' r) _ = b
    rintro (⟨⟨hq⟩ | ⟨⟩⟩ | ⟨⟩)
    · exact .some (.some (.inl hq))
    · exact .some .none
    · exact .none
  have hv : v.keys.Nodup := by rw [worlds_keys h]; exact hn
  have hback : ∀ g h, (twinCorr cfg.flt cfg'.flt Ok Ok' cfg.detThr cfg'.detThr Q1 :
      Corr K K' L L D D' F F' X X').back g h →
      (twinCorr cfg.flt cfg'.flt Ok Ok' cfg.detThr cfg'.detThr Q1 :
        Corr K K' L L D D' F F' X X').back (backOf ct g) (backOf ct' h) := by
    intro g h hgh
    cases hct with
    | none => exact hgh
    | some hc =>
      refine .some ?_
      intro p q hpq
      have hv : q.data.length = p.data.length := hpq.vec
      obtain ⟨a1, a2, a3⟩ := hc.1.2 p hpq.len
      obtain ⟨b1, b2, b3⟩ := hc.2.2 q (by rw [hv, hpq.len, hpq.n, hpq.dim])
      exact ⟨trivial, by rw [a1, b1, hpq.n], by rw [a2, b2, hpq.dim], by rw [a1, a2, a3, hpq.len],
        by show List.length _ = List.length _; rw [a3, b3, hv]⟩
  have key := updateCore_rel_at (twin_core (L := L) (X := X) (X' := X') (filterLaws_dims hL) hL' hA hQ1 htop)
    (B := (twinCorr cfg.flt cfg'.flt Ok Ok' cfg.detThr cfg'.detThr Q1 : Corr K K' L L D D' F F' X X').back)
    (w := w) (v := v) (twin_worlds h) hd dets period (ct := ct) (ct' := ct') hback (hback _ _ .none)
    (.inr ⟨fun _ _ => trivial, by
      rw [advance_keys]; exact ((survivors_sublist cfg w.objs).map _).nodup hn⟩)
    (by
      intro ks hk hk' h1 hd1
      have ho := objects_rel h1 ks
      have e1 := first_round_objs (cfg := cfg) (ct := ct) hn
      have e2 := first_round_objs (cfg := cfg') (ct := ct') hv
      rw [← hk] at e1
      rw [← hk'] at e2
      rw [e1, e2] at ho ⊢
      exact twin_distances hf hg htop hC1 rfl (AgesOnly.refl _).aged (AgesOnly.refl _).aged h1.heap ho
        (fun _ h => h))
    (by
      intro w1 v1 out1 ks hs hs' h1 hd1 hk hk'
      obtain ⟨e1, a1, n1, sub1⟩ := second_round_objs hn hs
      obtain ⟨e2, a2, n2, sub2⟩ := second_round_objs hv hs'
      have ho := objects_rel h1 ks
      rw [← hk] at e1
      rw [← hk'] at e2
      rw [e1, e2] at ho ⊢
      exact ⟨.inr ⟨fun _ _ => trivial, n1⟩,
        twin_distances hf hg htop hC1 rfl a1.aged a2.aged h1.heap ho sub1⟩)
    (.inl hA.reid)
  refine ⟨twin_worlds key.1, ?_⟩
  have := key.2
  revert this
  generalize (updateCore cfg w dets period ct).2 = a
  generalize (updateCore cfg' v dets period ct').2 = b
  rintro (⟨e⟩ | hl)
  · exact .error e
  · exact .ok (hl.imp fun _ _ h => twin_obj h)

end

end Norfair
