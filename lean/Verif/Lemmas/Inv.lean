import Verif.Lemmas.Micro
import Verif.Model.History

/-! Invariants of every tracker state. -/

set_option linter.unusedSectionVars false

namespace Norfair

variable {K L D F X : Type}

/-- a detection heap in which only ages (set, never unset), and absolute points changed -/
theorem transformDet_fields (c : CoordTrans K) (heap : Ref → Det K L X) (r r' : Ref) :
    ∃ a, transformDet c heap r r' = { heap r' with absPoints := a } := by
  unfold transformDet
  split
  · rename_i e; subst e; exact ⟨_, rfl⟩
  · exact ⟨_, rfl⟩

namespace World

theorem mem_after {w : World K L D F X} {heap g c} {o p : Obj K L D F}
    (h : p ∈ (w.after heap g c o).objs) : p = o ∨ (p ∈ w.objs ∧ p.initId ≠ o.initId) := by
  unfold after at h
  rcases mem_put h with ⟨h, _⟩ | h
  · exact Or.inl h
  · exact Or.inr h

@[simp] theorem after_keys (w : World K L D F X) (heap g c) (o : Obj K L D F) :
    (w.after heap g c o).keys = w.keys := by
  unfold after; rw [put_keys]; rfl

theorem mem_remove {w : World K L D F X} {c : Nat} {p : Obj K L D F} (h : p ∈ (w.remove c).objs) :
    p ∈ w.objs ∧ p.initId ≠ c := by
  unfold remove at h
  simpa using h

theorem remove_keys (w : World K L D F X) (c : Nat) :
    (w.remove c).keys = w.keys.filter (fun k => decide (k ≠ c)) := by
  unfold remove keys
  simp only [List.filter_map]
  rfl

end World

/-- the object made by `createObj` (before the coordinate transformation is attached) -/
def newObj [LinearOrder K] (cfg : Cfg K L D F X) (w : World K L D F X) (r : Ref) (period : Int)
    (ct : Option (CoordTrans K)) : Obj K L D F :=
  Obj.updateCT ct
    { initId := w.initCount + 1
      id := if period ≤ cfg.initDelay then none else some (w.count + 1)
      globalId := if period ≤ cfg.initDelay then none else some (w.gcount + 1)
      numPoints := (w.heap r).absPoints.n
      dimPoints := (w.heap r).absPoints.dim
      hitCounter := period
      reidHitCounter := none
      lastDistance := none
      curMin := none
      lastDet := r
      age := 0
      isInit := decide (period ≤ cfg.initDelay)
      pwMax := max cfg.pwMax period
      initialPeriod := period
      once := match (w.heap r).scores with
        | none => List.replicate (w.heap r).absPoints.n true
        | some s => s.map (fun x => decide (cfg.detThr < x))
      pointHits := (match (w.heap r).scores with
        | none => List.replicate (w.heap r).absPoints.n true
        | some s => s.map (fun x => decide (cfg.detThr < x))).map (fun b : Bool => if b then 1 else 0)
      past := if 0 < cfg.pastLen then [r] else []
      filter := cfg.flt.create (w.heap r).absPoints
      label := (w.heap r).label
      absToRel := none }

theorem createObj_eq [LinearOrder K] (cfg : Cfg K L D F X) (w : World K L D F X) (r : Ref)
    (period : Int) (ct : Option (CoordTrans K)) :
    createObj cfg w r period ct =
      { heap := setAge w.heap r 0
        gcount := w.gcount + (if period ≤ cfg.initDelay then 0 else 1)
        count := w.count + (if period ≤ cfg.initDelay then 0 else 1)
        initCount := w.initCount + 1
        objs := w.objs ++ [newObj cfg w r period ct] } := by
  unfold createObj newObj
  by_cases h : period ≤ cfg.initDelay
  · simp only [h, decide_true, if_true, Nat.add_zero]; rfl
  · simp only [h, decide_false, if_false]; rfl

section
variable [LinearOrder K] [Zero K] [LinearOrder D] [OrderTop D] [Zero D] [DecidableEq L]

/-! ### Invariants of single objects -/

/-- `Q heap o` is kept by everything that an `update` with these arguments can do to one object, as
long as `H heap` holds (which is kept too). -/
structure ObjInv (cfg : Cfg K L D F X) (dets : List Ref) (period : Int) (ct : Option (CoordTrans K))
    (H : (Ref → Det K L X) → Prop) (Q : (Ref → Det K L X) → Obj K L D F → Prop) : Prop where
  heapAges : ∀ h h', AgesOnly h h' → H h → H h'
  heapTransform : ∀ h c r, ct = some c → r ∈ dets → H h → H (transformDet c h r)
  ages : ∀ h h' o, AgesOnly h h' → Q h o → Q h' o
  transform : ∀ h c r o, ct = some c → r ∈ dets → Q h o → Q (transformDet c h r) o
  step : ∀ h o, (cfg.reidMax = none → o.hcPos = true) → Q h o →
    Q h ((o.trackerStep cfg).updateCT ct)
  setMin : ∀ h o v, (∀ d, v = some d → d < cfg.thr ∨ (cfg.reid ≠ none ∧ d < cfg.reidThr)) → Q h o →
    Q h { o with curMin := v }
  hit : ∀ h g c (o : Obj K L D F) r d, H h → r ∈ dets → Compat cfg (h r).label o.label → d < cfg.thr → Q h o →
    (hitObj cfg h g c o r period).err = none →
    Q (hitObj cfg h g c o r period).heap
      { (hitObj cfg h g c o r period).obj with lastDistance := some d }
  hitErr : ∀ h g c (o : Obj K L D F) r, H h → r ∈ dets → Compat cfg (h r).label o.label → Q h o →
    (hitObj cfg h g c o r period).err ≠ none →
    Q (hitObj cfg h g c o r period).heap (hitObj cfg h g c o r period).obj
  merge : ∀ h o c, cfg.reid ≠ none → c.label = o.label → Q h o → Q h c →
    Q (mergeObj cfg h o c).1 (mergeObj cfg h o c).2.1
  create : ∀ w r, H w.heap → r ∈ dets → Q (setAge w.heap r 0) (newObj cfg w r period ct)

theorem Micro.objInv {adv : Bool} {cfg : Cfg K L D F X} {dets period ct}
    {H : (Ref → Det K L X) → Prop}
    {Q : (Ref → Det K L X) → Obj K L D F → Prop} (hQ : ObjInv cfg dets period ct H Q)
    {w w' : World K L D F X} (h : Micro adv cfg dets period ct w w') (hH : H w.heap)
    (hw : ∀ o ∈ w.objs, Q w.heap o) :
    ∀ o ∈ w'.objs, Q w'.heap o := by
  cases h with
  | transform c r _ hc hr => exact fun o ho => hQ.transform _ _ _ _ hc hr (hw o ho)
  | advance hadv =>
    intro o ho
    simp only [Norfair.advance, List.mem_map] at ho
    obtain ⟨p, hp, rfl⟩ := ho
    refine hQ.step _ _ ?_ (hw p ((survivors_sublist cfg w.objs).subset hp))
    intro hr
    unfold survivors at hp
    rw [hr] at hp
    exact (List.mem_filter.mp hp).2
  | setMin o v hf hv =>
    intro p hp
    rcases World.mem_put hp with ⟨rfl, _⟩ | ⟨hp, _⟩
    · exact hQ.setMin _ _ _ hv (hw o (World.find_some hf).1)
    · exact hw p hp
  | hit o r d res hf hr hc hd hres he =>
    subst hres
    intro p hp
    rcases World.mem_after hp with rfl | ⟨hp, _⟩
    · exact hQ.hit _ _ _ _ _ _ hH hr hc hd (hw o (World.find_some hf).1) he
    · exact hQ.ages _ _ _ (hitObj_heap _ _ _ _ _ _ _) (hw p hp)
  | hitErr o r e res hf hr hc hres he =>
    subst hres
    intro p hp
    rcases World.mem_after hp with rfl | ⟨hp, _⟩
    · exact hQ.hitErr _ _ _ _ _ hH hr hc (hw o (World.find_some hf).1) (by rw [he]; simp)
    · exact hQ.ages _ _ _ (hitObj_heap _ _ _ _ _ _ _) (hw p hp)
  | merge o c heap' o' hf hfc hne hl hr hm =>
    intro p hp
    have hm1 : heap' = (mergeObj cfg w.heap o c).1 := by rw [hm]
    have hm2 : o' = (mergeObj cfg w.heap o c).2.1 := by rw [hm]
    subst hm1; subst hm2
    rcases World.mem_after (World.mem_remove hp).1 with rfl | ⟨hp, _⟩
    · exact hQ.merge _ _ _ hr hl (hw o (World.find_some hf).1) (hw c (World.find_some hfc).1)
    · exact hQ.ages _ _ _ (mergeObj_basic cfg w.heap o c).2.2.2 (hw p hp)
  | mergeErr o c e heap' o' hf hfc hne hl hr hm =>
    intro p hp
    have hm1 : heap' = (mergeObj cfg w.heap o c).1 := by rw [hm]
    have hm2 : o' = (mergeObj cfg w.heap o c).2.1 := by rw [hm]
    subst hm1; subst hm2
    rcases World.mem_after hp with rfl | ⟨hp, _⟩
    · exact hQ.merge _ _ _ hr hl (hw o (World.find_some hf).1) (hw c (World.find_some hfc).1)
    · exact hQ.ages _ _ _ (mergeObj_basic cfg w.heap o c).2.2.2 (hw p hp)
  | create r hr =>
    intro p hp
    rw [createObj_eq] at hp ⊢
    rcases List.mem_append.mp hp with hp | hp
    · exact hQ.ages _ _ _ (agesOnly_setAge _ _ _) (hw p hp)
    · simp only [List.mem_singleton] at hp
      subst hp
      exact hQ.create _ _ hH hr

theorem Micro.heapInv {adv : Bool} {cfg : Cfg K L D F X} {dets period ct} {H : (Ref → Det K L X) → Prop}
    {Q : (Ref → Det K L X) → Obj K L D F → Prop} (hQ : ObjInv cfg dets period ct H Q)
    {w w' : World K L D F X} (h : Micro adv cfg dets period ct w w') (hH : H w.heap) : H w'.heap := by
  cases h with
  | transform c r _ hc hr => exact hQ.heapTransform _ _ _ hc hr hH
  | advance hadv => exact hH
  | setMin o v hf hv => exact hH
  | hit o r d res hf hr hc hd hres he =>
    subst hres; exact hQ.heapAges _ _ (hitObj_heap _ _ _ _ _ _ _) hH
  | hitErr o r e res hf hr hc hres he =>
    subst hres; exact hQ.heapAges _ _ (hitObj_heap _ _ _ _ _ _ _) hH
  | merge o c heap' o' hf hfc hne hl hr hm =>
    have hm1 : heap' = (mergeObj cfg w.heap o c).1 := by rw [hm]
    subst hm1; exact hQ.heapAges _ _ (mergeObj_basic cfg w.heap o c).2.2.2 hH
  | mergeErr o c e heap' o' hf hfc hne hl hr hm =>
    have hm1 : heap' = (mergeObj cfg w.heap o c).1 := by rw [hm]
    subst hm1; exact hQ.heapAges _ _ (mergeObj_basic cfg w.heap o c).2.2.2 hH
  | create r hr => rw [createObj_eq]; exact hQ.heapAges _ _ (agesOnly_setAge _ _ _) hH

theorem Micros.objInv {adv : Bool} {cfg : Cfg K L D F X} {dets period ct} {H : (Ref → Det K L X) → Prop}
    {Q : (Ref → Det K L X) → Obj K L D F → Prop} (hQ : ObjInv cfg dets period ct H Q)
    {w w' : World K L D F X} (h : Micros adv cfg dets period ct w w') (hH : H w.heap)
    (hw : ∀ o ∈ w.objs, Q w.heap o) : H w'.heap ∧ ∀ o ∈ w'.objs, Q w'.heap o := by
  induction h with
  | refl => exact ⟨hH, hw⟩
  | tail _ hm ih => exact ⟨hm.heapInv hQ ih.1, hm.objInv hQ ih.1 ih.2⟩

/-! ### The main invariant: identities -/

/-- identities of the tracked objects -/
structure Inv (w : World K L D F X) : Prop where
  sorted : w.keys.Pairwise (· < ·)
  bounded : ∀ o ∈ w.objs, 1 ≤ o.initId ∧ o.initId ≤ w.initCount
  initIff : ∀ o ∈ w.objs, o.isInit = true ↔ o.id = none
  globIff : ∀ o ∈ w.objs, o.id = none ↔ o.globalId = none
  idRange : ∀ o ∈ w.objs, ∀ i, o.id = some i → 1 ≤ i ∧ i ≤ w.count
  gidRange : ∀ o ∈ w.objs, ∀ i, o.globalId = some i → 1 ≤ i ∧ i ≤ w.gcount
  idInj : ∀ o ∈ w.objs, ∀ p ∈ w.objs, ∀ i, o.id = some i → p.id = some i → o.initId = p.initId
  gidInj : ∀ o ∈ w.objs, ∀ p ∈ w.objs, ∀ i, o.globalId = some i → p.globalId = some i →
    o.initId = p.initId

theorem Inv.nodup {w : World K L D F X} (h : Inv w) : w.keys.Nodup :=
  h.sorted.imp (fun hab => Nat.ne_of_lt hab)

/-- `w'` comes after `w` in the life of a tracker: objects keep their identity, new ids are new. -/
structure Evolve (w w' : World K L D F X) : Prop where
  count : w.count ≤ w'.count
  gcount : w.gcount ≤ w'.gcount
  initCount : w.initCount ≤ w'.initCount
  /-- an object of `w'` is either new or the later state of an object of `w` -/
  origin : ∀ o' ∈ w'.objs, w.initCount < o'.initId ∨
    ∃ o ∈ w.objs, o.initId = o'.initId ∧ o'.label = o.label ∧
      o'.numPoints = o.numPoints ∧ o'.dimPoints = o.dimPoints ∧
      o'.initialPeriod = o.initialPeriod ∧ o'.pwMax = o.pwMax ∧
      (o.isInit = false → o'.isInit = false) ∧
      (o.id ≠ none → o'.id = o.id) ∧ (o.globalId ≠ none → o'.globalId = o.globalId)
  /-- an id not carried by the same object before is new -/
  newId : ∀ o' ∈ w'.objs, ∀ i, o'.id = some i → w.count < i ∨
    ∃ o ∈ w.objs, o.initId = o'.initId ∧ o.id = some i
  newGid : ∀ o' ∈ w'.objs, ∀ i, o'.globalId = some i → w.gcount < i ∨
    ∃ o ∈ w.objs, o.initId = o'.initId ∧ o.globalId = some i
  ages : ∀ r, (w.heap r).age ≠ none → (w'.heap r).age ≠ none

theorem Evolve.refl (w : World K L D F X) : Evolve w w :=
  ⟨le_rfl, le_rfl, le_rfl, fun o h => Or.inr ⟨o, h, rfl, rfl, rfl, rfl, rfl, rfl, id, fun _ => rfl, fun _ => rfl⟩,
    fun o h i hi => Or.inr ⟨o, h, rfl, hi⟩, fun o h i hi => Or.inr ⟨o, h, rfl, hi⟩, fun _ => id⟩

theorem Evolve.trans {a b c : World K L D F X} (h : Evolve a b) (h' : Evolve b c) : Evolve a c := by
  refine ⟨h.count.trans h'.count, h.gcount.trans h'.gcount, h.initCount.trans h'.initCount,
    ?_, ?_, ?_, fun r hr => h'.ages r (h.ages r hr)⟩
  · intro o2 h2
    rcases h'.origin o2 h2 with hlt | ⟨o1, h1, e1, l1, n1, d1, p1, q1, i1, id1, g1⟩
    · exact Or.inl (lt_of_le_of_lt h.initCount hlt)
    · rcases h.origin o1 h1 with hlt | ⟨o, h0, e0, l0, n0, d0, p0, q0, i0, id0, g0⟩
      · left; rw [← e1]; exact hlt
      · right
        refine ⟨o, h0, e0.trans e1, l1.trans l0, n1.trans n0, d1.trans d0, p1.trans p0, q1.trans q0,
          fun hi => i1 (i0 hi), fun hi => ?_, fun hi => ?_⟩
        · have e := id0 hi
          rw [id1 (by rw [e]; exact hi), e]
        · have e := g0 hi
          rw [g1 (by rw [e]; exact hi), e]
  · intro o2 h2 i hi
    rcases h'.newId o2 h2 i hi with hlt | ⟨o1, h1, e1, hi1⟩
    · exact Or.inl (lt_of_le_of_lt h.count hlt)
    · rcases h.newId o1 h1 i hi1 with hlt | ⟨o, h0, e0, hi0⟩
      · exact Or.inl hlt
      · exact Or.inr ⟨o, h0, e0.trans e1, hi0⟩
  · intro o2 h2 i hi
    rcases h'.newGid o2 h2 i hi with hlt | ⟨o1, h1, e1, hi1⟩
    · exact Or.inl (lt_of_le_of_lt h.gcount hlt)
    · rcases h.newGid o1 h1 i hi1 with hlt | ⟨o, h0, e0, hi0⟩
      · exact Or.inl hlt
      · exact Or.inr ⟨o, h0, e0.trans e1, hi0⟩

/-- a step that rewrites one object without touching its identity and maybe gives it the next ids -/
theorem Inv.after {w : World K L D F X} (hI : Inv w) {o o' : Obj K L D F} {heap : Ref → Det K L X}
    {n : Nat} (hf : w.find o.initId = some o) (e1 : o'.initId = o.initId)
    (e2 : o'.label = o.label) (e3 : o'.numPoints = o.numPoints) (e4 : o'.dimPoints = o.dimPoints)
    (e5 : o'.initialPeriod = o.initialPeriod) (e6 : o'.pwMax = o.pwMax)
    (hn : (n = 0 ∧ o'.isInit = o.isInit ∧ o'.id = o.id ∧ o'.globalId = o.globalId) ∨
      (n = 1 ∧ o.isInit = true ∧ o'.isInit = false ∧ o'.id = some (w.count + 1) ∧
        o'.globalId = some (w.gcount + 1)))
    (hh : ∀ r, (w.heap r).age ≠ none → (heap r).age ≠ none) :
    Inv (w.after heap (w.gcount + n) (w.count + n) o') ∧
    Evolve w (w.after heap (w.gcount + n) (w.count + n) o') := by
  obtain ⟨hmem, _⟩ := World.find_some hf
  have hmem' : ∀ p ∈ (w.after heap (w.gcount + n) (w.count + n) o').objs,
      p = o' ∨ (p ∈ w.objs ∧ p.initId ≠ o.initId) := by
    intro p hp
    rcases World.mem_after hp with h | ⟨h, h'⟩
    · exact Or.inl h
    · exact Or.inr ⟨h, by rw [← e1]; exact h'⟩
  have hidO : ∀ i, o'.id = some i → (i = w.count + 1 ∧ n = 1) ∨ o.id = some i := by
    intro i hi
    rcases hn with ⟨_, _, h, _⟩ | ⟨h1, _, _, h, _⟩
    · right; rw [← h]; exact hi
    · left; rw [h] at hi; exact ⟨(Option.some.inj hi).symm, h1⟩
  have hgidO : ∀ i, o'.globalId = some i → (i = w.gcount + 1 ∧ n = 1) ∨ o.globalId = some i := by
    intro i hi
    rcases hn with ⟨_, _, _, h⟩ | ⟨h1, _, _, _, h⟩
    · right; rw [← h]; exact hi
    · left; rw [h] at hi; exact ⟨(Option.some.inj hi).symm, h1⟩
  constructor
  · refine ⟨by rw [World.after_keys]; exact hI.sorted, ?_, ?_, ?_, ?_, ?_, ?_, ?_⟩
    · intro p hp
      rcases hmem' p hp with rfl | ⟨h, _⟩
      · rw [e1]; exact hI.bounded o hmem
      · exact hI.bounded p h
    · intro p hp
      rcases hmem' p hp with rfl | ⟨h, _⟩
      · rcases hn with ⟨_, h1, h2, _⟩ | ⟨_, _, h1, h2, _⟩
        · rw [h1, h2]; exact hI.initIff o hmem
        · rw [h1, h2]; simp
      · exact hI.initIff p h
    · intro p hp
      rcases hmem' p hp with rfl | ⟨h, _⟩
      · rcases hn with ⟨_, _, h1, h2⟩ | ⟨_, _, _, h1, h2⟩
        · rw [h1, h2]; exact hI.globIff o hmem
        · rw [h1, h2]; simp
      · exact hI.globIff p h
    · intro p hp i hi
      show 1 ≤ i ∧ i ≤ w.count + n
      rcases hmem' p hp with rfl | ⟨h, _⟩
      · rcases hidO i hi with ⟨rfl, rfl⟩ | h'
        · omega
        · have := hI.idRange o hmem i h'; omega
      · have := hI.idRange p h i hi; omega
    · intro p hp i hi
      show 1 ≤ i ∧ i ≤ w.gcount + n
      rcases hmem' p hp with rfl | ⟨h, _⟩
      · rcases hgidO i hi with ⟨rfl, rfl⟩ | h'
        · omega
        · have := hI.gidRange o hmem i h'; omega
      · have := hI.gidRange p h i hi; omega
    · intro p hp q hq i hi hj
      rcases hmem' p hp with rfl | ⟨h, h0⟩ <;> rcases hmem' q hq with rfl | ⟨h', h0'⟩
      · rfl
      · rcases hidO i hi with ⟨rfl, _⟩ | hh'
        · have := hI.idRange q h' _ hj; omega
        · rw [e1]; exact hI.idInj o hmem q h' i hh' hj
      · rcases hidO i hj with ⟨rfl, _⟩ | hh'
        · have := hI.idRange p h _ hi; omega
        · rw [e1]; exact hI.idInj p h o hmem i hi hh'
      · exact hI.idInj p h q h' i hi hj
    · intro p hp q hq i hi hj
      rcases hmem' p hp with rfl | ⟨h, h0⟩ <;> rcases hmem' q hq with rfl | ⟨h', h0'⟩
      · rfl
      · rcases hgidO i hi with ⟨rfl, _⟩ | hh'
        · have := hI.gidRange q h' _ hj; omega
        · rw [e1]; exact hI.gidInj o hmem q h' i hh' hj
      · rcases hgidO i hj with ⟨rfl, _⟩ | hh'
        · have := hI.gidRange p h _ hi; omega
        · rw [e1]; exact hI.gidInj p h o hmem i hi hh'
      · exact hI.gidInj p h q h' i hi hj
  · refine ⟨Nat.le_add_right _ _, Nat.le_add_right _ _, le_rfl, ?_, ?_, ?_, hh⟩
    · intro p hp
      right
      rcases hmem' p hp with rfl | ⟨h, _⟩
      · refine ⟨o, hmem, e1.symm, e2, e3, e4, e5, e6, ?_, ?_, ?_⟩
        · rcases hn with ⟨_, h1, _, _⟩ | ⟨_, _, h1, _, _⟩
          · rw [h1]; exact id
          · exact fun _ => h1
        · intro hne
          rcases hn with ⟨_, _, h1, _⟩ | ⟨_, h1, _, _, _⟩
          · exact h1
          · exact absurd ((hI.initIff o hmem).mp h1) hne
        · intro hne
          rcases hn with ⟨_, _, _, h1⟩ | ⟨_, h1, _, _, _⟩
          · exact h1
          · exact absurd ((hI.globIff o hmem).mp ((hI.initIff o hmem).mp h1)) hne
      · exact ⟨p, h, rfl, rfl, rfl, rfl, rfl, rfl, id, fun _ => rfl, fun _ => rfl⟩
    · intro p hp i hi
      rcases hmem' p hp with rfl | ⟨h, _⟩
      · rcases hidO i hi with ⟨rfl, _⟩ | h'
        · left; omega
        · right; exact ⟨o, hmem, e1.symm, h'⟩
      · right; exact ⟨p, h, rfl, hi⟩
    · intro p hp i hi
      rcases hmem' p hp with rfl | ⟨h, _⟩
      · rcases hgidO i hi with ⟨rfl, _⟩ | h'
        · left; omega
        · right; exact ⟨o, hmem, e1.symm, h'⟩
      · right; exact ⟨p, h, rfl, hi⟩

theorem Inv.remove {w : World K L D F X} (hI : Inv w) (c : Nat) :
    Inv (w.remove c) ∧ Evolve w (w.remove c) := by
  have hm : ∀ p ∈ (w.remove c).objs, p ∈ w.objs := fun p hp => (World.mem_remove hp).1
  refine ⟨⟨?_, fun p hp => hI.bounded p (hm p hp), fun p hp => hI.initIff p (hm p hp),
    fun p hp => hI.globIff p (hm p hp), fun p hp => hI.idRange p (hm p hp),
    fun p hp => hI.gidRange p (hm p hp), fun p hp q hq => hI.idInj p (hm p hp) q (hm q hq),
    fun p hp q hq => hI.gidInj p (hm p hp) q (hm q hq)⟩, ?_⟩
  · rw [World.remove_keys]; exact hI.sorted.filter _
  · exact ⟨le_rfl, le_rfl, le_rfl, fun o h => Or.inr ⟨o, hm o h, rfl, rfl, rfl, rfl, rfl, rfl, id,
      fun _ => rfl, fun _ => rfl⟩, fun o h i hi => Or.inr ⟨o, hm o h, rfl, hi⟩,
      fun o h i hi => Or.inr ⟨o, hm o h, rfl, hi⟩, fun _ => id⟩

theorem hitObj_identity (cfg : Cfg K L D F X) (heap : Ref → Det K L X) (g c : Nat)
    (o : Obj K L D F) (r : Ref) (period : Int) :
    let res := hitObj cfg heap g c o r period
    ∃ n, res.gcount = g + n ∧ res.count = c + n ∧
      res.obj.initId = o.initId ∧ res.obj.label = o.label ∧ res.obj.numPoints = o.numPoints ∧
      res.obj.dimPoints = o.dimPoints ∧ res.obj.initialPeriod = o.initialPeriod ∧
      res.obj.pwMax = o.pwMax ∧
      ((n = 0 ∧ res.obj.isInit = o.isInit ∧ res.obj.id = o.id ∧ res.obj.globalId = o.globalId) ∨
      (n = 1 ∧ o.isInit = true ∧ res.obj.isInit = false ∧ res.obj.id = some (c + 1) ∧
        res.obj.globalId = some (g + 1))) := by
  simp only
  cases h : condAdd cfg.pastLen o.age heap o.past r with
  | none => rw [hitObj_none h]; exact ⟨0, rfl, rfl, rfl, rfl, rfl, rfl, rfl, rfl, Or.inl ⟨rfl, rfl, rfl, rfl⟩⟩
  | some p =>
    rw [hitObj_some (heap' := p.1) (past' := p.2) h]
    obtain ⟨ph, fl, on, e⟩ := hitSensors_obj cfg (p.1 r) period (hitCounters cfg g c o r period p.2)
    refine ⟨hitIds cfg o period, rfl, rfl, ?_⟩
    simp only [e]
    unfold hitCounters hitIds
    split
    · rename_i hc
      exact ⟨rfl, rfl, rfl, rfl, rfl, rfl, Or.inr ⟨rfl, hc.1, rfl, rfl, rfl⟩⟩
    · exact ⟨rfl, rfl, rfl, rfl, rfl, rfl, Or.inl ⟨rfl, rfl, rfl, rfl⟩⟩

theorem advance_mem {cfg : Cfg K L D F X} {ct : Option (CoordTrans K)} {w : World K L D F X}
    {o' : Obj K L D F} (h : o' ∈ (advance cfg ct w).objs) :
    ∃ o ∈ w.objs, ∃ g, o' = { o.trackerStep cfg with absToRel := g } ∧ o ∈ survivors cfg w.objs := by
  simp only [Norfair.advance, List.mem_map] at h
  obtain ⟨p, hp, rfl⟩ := h
  obtain ⟨g, hg⟩ := updateCT_fields ct (p.trackerStep cfg)
  exact ⟨p, (survivors_sublist cfg w.objs).subset hp, g, hg, hp⟩

theorem Micro.inv {adv : Bool} {cfg : Cfg K L D F X} {dets period ct} {w w' : World K L D F X}
    (h : Micro adv cfg dets period ct w w') (hI : Inv w) : Inv w' ∧ Evolve w w' := by
  cases h with
  | transform c r _ hc hr =>
    exact ⟨⟨hI.sorted, hI.bounded, hI.initIff, hI.globIff, hI.idRange, hI.gidRange, hI.idInj, hI.gidInj⟩,
      ⟨le_rfl, le_rfl, le_rfl, (Evolve.refl w).origin, (Evolve.refl w).newId, (Evolve.refl w).newGid, by
        intro r' hr'
        obtain ⟨a, ha⟩ := transformDet_fields c w.heap r r'
        simp only [ha]; exact hr'⟩⟩
  | advance hadv =>
    refine ⟨⟨?_, ?_, ?_, ?_, ?_, ?_, ?_, ?_⟩, ⟨le_rfl, le_rfl, le_rfl, ?_, ?_, ?_, fun _ => id⟩⟩
    · rw [advance_keys]
      exact hI.sorted.sublist ((survivors_sublist cfg w.objs).map _)
    · intro o ho; obtain ⟨p, hp, g, rfl, _⟩ := advance_mem ho; exact hI.bounded p hp
    · intro o ho; obtain ⟨p, hp, g, rfl, _⟩ := advance_mem ho; exact hI.initIff p hp
    · intro o ho; obtain ⟨p, hp, g, rfl, _⟩ := advance_mem ho; exact hI.globIff p hp
    · intro o ho; obtain ⟨p, hp, g, rfl, _⟩ := advance_mem ho; exact hI.idRange p hp
    · intro o ho; obtain ⟨p, hp, g, rfl, _⟩ := advance_mem ho; exact hI.gidRange p hp
    · intro o ho q hq; obtain ⟨p, hp, g, rfl, _⟩ := advance_mem ho
      obtain ⟨p', hp', g', rfl, _⟩ := advance_mem hq
      exact hI.idInj p hp p' hp'
    · intro o ho q hq; obtain ⟨p, hp, g, rfl, _⟩ := advance_mem ho
      obtain ⟨p', hp', g', rfl, _⟩ := advance_mem hq
      exact hI.gidInj p hp p' hp'
    · intro o ho; obtain ⟨p, hp, g, rfl, _⟩ := advance_mem ho
      exact Or.inr ⟨p, hp, rfl, rfl, rfl, rfl, rfl, rfl, id, fun _ => rfl, fun _ => rfl⟩
    · intro o ho i hi; obtain ⟨p, hp, g, rfl, _⟩ := advance_mem ho
      exact Or.inr ⟨p, hp, rfl, hi⟩
    · intro o ho i hi; obtain ⟨p, hp, g, rfl, _⟩ := advance_mem ho
      exact Or.inr ⟨p, hp, rfl, hi⟩
  | setMin o v hf hv =>
    exact hI.after (n := 0) (o' := { o with curMin := v }) (heap := w.heap) hf rfl rfl rfl rfl rfl rfl
      (Or.inl ⟨rfl, rfl, rfl, rfl⟩) (fun _ => id)
  | hit o r d res hf hr hc hd hres he =>
    subst hres
    obtain ⟨n, hg, hcn, e1, e2, e3, e4, e5, e6, hn⟩ :=
      hitObj_identity cfg w.heap w.gcount w.count o r period
    rw [hg, hcn]
    exact hI.after (o' := { (hitObj cfg w.heap w.gcount w.count o r period).obj with
      lastDistance := some d }) hf e1 e2 e3 e4 e5 e6 hn (fun r' => (hitObj_heap _ _ _ _ _ _ _ r').2)
  | hitErr o r e res hf hr hc hres he =>
    subst hres
    obtain ⟨n, hg, hcn, e1, e2, e3, e4, e5, e6, hn⟩ :=
      hitObj_identity cfg w.heap w.gcount w.count o r period
    rw [hg, hcn]
    exact hI.after hf e1 e2 e3 e4 e5 e6 hn (fun r' => (hitObj_heap _ _ _ _ _ _ _ r').2)
  | merge o c heap' o' hf hfc hne hl hr hm =>
    have hm1 : heap' = (mergeObj cfg w.heap o c).1 := by rw [hm]
    have hm2 : o' = (mergeObj cfg w.heap o c).2.1 := by rw [hm]
    subst hm1; subst hm2
    obtain ⟨h1, h2⟩ := hI.after (n := 0) (o' := (mergeObj cfg w.heap o c).2.1)
      (heap := (mergeObj cfg w.heap o c).1) hf rfl rfl rfl rfl rfl rfl
      (Or.inl ⟨rfl, rfl, rfl, rfl⟩) (fun r' => ((mergeObj_basic cfg w.heap o c).2.2.2 r').2)
    obtain ⟨h3, h4⟩ := h1.remove c.initId
    exact ⟨h3, h2.trans h4⟩
  | mergeErr o c e heap' o' hf hfc hne hl hr hm =>
    have hm1 : heap' = (mergeObj cfg w.heap o c).1 := by rw [hm]
    have hm2 : o' = (mergeObj cfg w.heap o c).2.1 := by rw [hm]
    subst hm1; subst hm2
    exact hI.after (n := 0) (o' := (mergeObj cfg w.heap o c).2.1)
      (heap := (mergeObj cfg w.heap o c).1) hf rfl rfl rfl rfl rfl rfl
      (Or.inl ⟨rfl, rfl, rfl, rfl⟩) (fun r' => ((mergeObj_basic cfg w.heap o c).2.2.2 r').2)
  | create r hr =>
    rw [createObj_eq]
    obtain ⟨g0, hg0⟩ := updateCT_fields ct (newObj cfg w r period none)
    have hnew : newObj cfg w r period ct = { newObj cfg w r period none with absToRel := g0 } := by
      rw [← hg0]; rfl
    set n : Nat := if period ≤ cfg.initDelay then 0 else 1 with hn
    have hid : ∀ i, (newObj cfg w r period ct).id = some i → i = w.count + 1 ∧ n = 1 := by
      intro i hi
      rw [hnew] at hi
      simp only [newObj, Obj.updateCT] at hi
      by_cases hp : period ≤ cfg.initDelay
      · simp [hp] at hi
      · simp [hp] at hi; simp [hn, hp, hi]
    have hgid : ∀ i, (newObj cfg w r period ct).globalId = some i → i = w.gcount + 1 ∧ n = 1 := by
      intro i hi
      rw [hnew] at hi
      simp only [newObj, Obj.updateCT] at hi
      by_cases hp : period ≤ cfg.initDelay
      · simp [hp] at hi
      · simp [hp] at hi; simp [hn, hp, hi]
    have hkey : (newObj cfg w r period ct).initId = w.initCount + 1 := by rw [hnew]; rfl
    have hmem : ∀ p ∈ w.objs ++ [newObj cfg w r period ct],
        p ∈ w.objs ∨ p = newObj cfg w r period ct := by
      intro p hp
      rcases List.mem_append.mp hp with h | h
      · exact Or.inl h
      · exact Or.inr (by simpa using h)
    refine ⟨⟨?_, ?_, ?_, ?_, ?_, ?_, ?_, ?_⟩, ⟨Nat.le_add_right _ _, Nat.le_add_right _ _,
      Nat.le_add_right _ _, ?_, ?_, ?_, ?_⟩⟩
    · show ((w.objs ++ [newObj cfg w r period ct]).map (·.initId)).Pairwise (· < ·)
      rw [List.map_append, List.pairwise_append]
      refine ⟨hI.sorted, by simp, ?_⟩
      intro a ha b hb
      simp only [List.map_cons, List.map_nil, List.mem_singleton] at hb
      obtain ⟨p, hp, rfl⟩ := List.mem_map.mp ha
      have := hI.bounded p hp
      omega
    · intro p hp
      show 1 ≤ p.initId ∧ p.initId ≤ w.initCount + 1
      rcases hmem p hp with h | rfl
      · have := hI.bounded p h; omega
      · omega
    · intro p hp
      rcases hmem p hp with h | rfl
      · exact hI.initIff p h
      · rw [hnew]
        simp only [newObj, Obj.updateCT]
        by_cases hp : period ≤ cfg.initDelay <;> simp [hp]
    · intro p hp
      rcases hmem p hp with h | rfl
      · exact hI.globIff p h
      · rw [hnew]
        simp only [newObj, Obj.updateCT]
        by_cases hp : period ≤ cfg.initDelay <;> simp [hp]
    · intro p hp i hi
      show 1 ≤ i ∧ i ≤ w.count + n
      rcases hmem p hp with h | rfl
      · have := hI.idRange p h i hi; omega
      · have := hid i hi; omega
    · intro p hp i hi
      show 1 ≤ i ∧ i ≤ w.gcount + n
      rcases hmem p hp with h | rfl
      · have := hI.gidRange p h i hi; omega
      · have := hgid i hi; omega
    · intro p hp q hq i hi hj
      rcases hmem p hp with h | rfl <;> rcases hmem q hq with h' | rfl
      · exact hI.idInj p h q h' i hi hj
      · have := hI.idRange p h i hi; have := hid i hj; omega
      · have := hI.idRange q h' i hj; have := hid i hi; omega
      · rfl
    · intro p hp q hq i hi hj
      rcases hmem p hp with h | rfl <;> rcases hmem q hq with h' | rfl
      · exact hI.gidInj p h q h' i hi hj
      · have := hI.gidRange p h i hi; have := hgid i hj; omega
      · have := hI.gidRange q h' i hj; have := hgid i hi; omega
      · rfl
    · intro p hp
      rcases hmem p hp with h | rfl
      · exact Or.inr ⟨p, h, rfl, rfl, rfl, rfl, rfl, rfl, id, fun _ => rfl, fun _ => rfl⟩
      · left; omega
    · intro p hp i hi
      rcases hmem p hp with h | rfl
      · exact Or.inr ⟨p, h, rfl, hi⟩
      · left; have := hid i hi; omega
    · intro p hp i hi
      rcases hmem p hp with h | rfl
      · exact Or.inr ⟨p, h, rfl, hi⟩
      · left; have := hgid i hi; omega
    · exact fun r' => ((agesOnly_setAge w.heap r 0) r').2

theorem Micros.inv {adv : Bool} {cfg : Cfg K L D F X} {dets period ct} {w w' : World K L D F X}
    (h : Micros adv cfg dets period ct w w') (hI : Inv w) : Inv w' ∧ Evolve w w' := by
  induction h with
  | refl => exact ⟨hI, .refl _⟩
  | tail _ hm ih =>
    obtain ⟨h1, h2⟩ := hm.inv ih.1
    exact ⟨h1, ih.2.trans h2⟩

/-- one `update`, successful or not -/
theorem update_inv {cfg : Cfg K L D F X} {w : World K L D F X} (hI : Inv w) (dets period ct) :
    Inv (update cfg w dets period ct).1 ∧ Evolve w (update cfg w dets period ct).1 :=
  (update_micros cfg w hI.nodup dets period ct).inv hI

theorem env_inv {w : World K L D F X} (hI : Inv w) {heap : Ref → Det K L X} {g : Nat}
    (h : EnvOk w heap g) :
    Inv { w with heap := heap, gcount := g } ∧ Evolve w { w with heap := heap, gcount := g } := by
  obtain ⟨h1, h2⟩ := h
  refine ⟨⟨hI.sorted, hI.bounded, hI.initIff, hI.globIff, hI.idRange, ?_, hI.idInj, hI.gidInj⟩,
    ⟨le_rfl, h1, le_rfl, (Evolve.refl w).origin, (Evolve.refl w).newId, ?_, h2⟩⟩
  · intro o ho i hi
    have := hI.gidRange o ho i hi
    exact ⟨this.1, this.2.trans h1⟩
  · intro o ho i hi
    exact Or.inr ⟨o, ho, rfl, hi⟩

theorem Reaches.inv {cfg : Cfg K L D F X} {E P} {w w' : World K L D F X}
    (h : Reaches cfg E P w w') (hI : Inv w) : Inv w' ∧ Evolve w w' := by
  induction h with
  | refl => exact ⟨hI, .refl _⟩
  | call dets period ct _ _ ih =>
    obtain ⟨h1, h2⟩ := update_inv (cfg := cfg) ih.1 dets period ct
    exact ⟨h1, ih.2.trans h2⟩
  | env heap g _ he _ ih =>
    obtain ⟨h1, h2⟩ := env_inv ih.1 he
    exact ⟨h1, ih.2.trans h2⟩

theorem Inv.initial {w : World K L D F X} (h : w.Initial) : Inv w := by
  obtain ⟨h1, h2, h3⟩ := h
  refine ⟨?_, ?_, ?_, ?_, ?_, ?_, ?_, ?_⟩ <;> simp [World.keys, h1]

theorem Reachable.inv {cfg : Cfg K L D F X} {w : World K L D F X} (h : Reachable cfg w) : Inv w := by
  obtain ⟨w0, h0, h⟩ := h
  exact (h.inv (Inv.initial h0)).1

/-- object invariants over whole histories -/
theorem Reaches.objInv {cfg : Cfg K L D F X} {E P} {Q : (Ref → Det K L X) → Obj K L D F → Prop}
    {w w' : World K L D F X} (h : Reaches cfg E P w w') (hI : Inv w)
    (hQ : ∀ dets period ct w, P dets period ct w →
      ∃ H, H w.heap ∧ ObjInv cfg (dets.getD []) period ct H Q)
    (hE : ∀ h h' o, E h h' → (∀ r, (h r).age ≠ none → (h' r).age ≠ none) → Q h o → Q h' o)
    (hw : ∀ o ∈ w.objs, Q w.heap o) : ∀ o ∈ w'.objs, Q w'.heap o := by
  induction h with
  | refl => exact hw
  | call dets period ct hr hp ih =>
    obtain ⟨H, hH, hQ'⟩ := hQ _ _ _ _ hp
    exact ((update_micros cfg _ ((hr.inv hI).1).nodup dets period ct).objInv hQ' hH ih).2
  | env heap g hr he hE' ih =>
    exact fun o ho => hE _ _ _ hE' he.2 (ih o ho)

end

end Norfair
