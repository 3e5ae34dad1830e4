import Verif.Model.Sys
import Verif.Lemmas.Micro

/-! Two trackers in states that differ only in `global_id`s and in detections they do not know behave
alike. -/

set_option linter.unusedSectionVars false

namespace Norfair

variable {K L D F X : Type}

/-- the distance functions do not look at `global_id` -/
def IgnoresGlobalId (cfg : Cfg K L D F X) : Prop :=
  (∀ f, cfg.dist = .scalar f → ∀ d v g, f d { v with obj := { v.obj with globalId := g } } = f d v) ∧
  ∀ f, cfg.reid = some f → ∀ u v g g',
    f { u with obj := { u.obj with globalId := g } } { v with obj := { v.obj with globalId := g' } } = f u v

/-- `h` and `h'` agree on the detections in `S` and are `h0` and `h0'` elsewhere -/
structure HSim (S : Ref → Prop) (h0 h0' h h' : Ref → Det K L X) : Prop where
  same : ∀ r, S r → h' r = h r
  left : ∀ r, ¬ S r → h r = h0 r
  right : ∀ r, ¬ S r → h' r = h0' r

/-- the same object up to `global_id`, which only knows detections in `S` -/
structure OSim (S : Ref → Prop) (o p : Obj K L D F) : Prop where
  same : p = { o with globalId := p.globalId }
  last : S o.lastDet
  past : ∀ r ∈ o.past, S r

structure WSim (S : Ref → Prop) (h0 h0' : Ref → Det K L X) (w v : World K L D F X) : Prop where
  heap : HSim S h0 h0' w.heap v.heap
  count : v.count = w.count
  initCount : v.initCount = w.initCount
  objs : List.Forall₂ (OSim S) w.objs v.objs

variable {S : Ref → Prop} {h0 h0' : Ref → Det K L X}

theorem find_sim {w v : World K L D F X} (h : WSim S h0 h0' w v) (k : Nat) :
    (w.find k = none ∧ v.find k = none) ∨
      ∃ o p, w.find k = some o ∧ v.find k = some p ∧ OSim S o p := by
  unfold World.find
  have := h.objs
  generalize w.objs = a at this
  generalize v.objs = b at this
  induction this with
  | nil => left; exact ⟨rfl, rfl⟩
  | @cons o p l m hop _ ih =>
    have hid : p.initId = o.initId := by rw [hop.same]
    by_cases hk : o.initId = k
    · right
      exact ⟨o, p, by simp [hk], by simp [hid, hk], hop⟩
    · simpa [hid, hk] using ih

theorem put_sim {w v : World K L D F X} (h : WSim S h0 h0' w v) {o p : Obj K L D F} (hop : OSim S o p) :
    WSim S h0 h0' (w.put o) (v.put p) := by
  refine ⟨h.heap, h.count, h.initCount, ?_⟩
  simp only [World.put, List.forall₂_map_left_iff, List.forall₂_map_right_iff]
  have hid : p.initId = o.initId := by rw [hop.same]
  refine h.objs.imp ?_
  intro a b hab
  have hid' : b.initId = a.initId := by rw [hab.same]
  rw [hid, hid']
  by_cases hk : a.initId = o.initId
  · simp only [hk, if_true]; exact hop
  · simp only [hk, if_false]; exact hab

theorem objects_sim {w v : World K L D F X} (h : WSim S h0 h0' w v) (ks : List Nat) :
    List.Forall₂ (OSim S) (w.objects ks) (v.objects ks) := by
  unfold World.objects
  induction ks with
  | nil => exact .nil
  | cons k ks ih =>
    rcases find_sim h k with ⟨h1, h2⟩ | ⟨o, p, h1, h2, hop⟩
    · simpa [h1, h2] using ih
    · simp only [List.filterMap_cons, h1, h2]
      exact .cons hop ih

theorem keysWhere_sim {w v : World K L D F X} (h : WSim S h0 h0' w v) (ks : List Nat)
    (q : Obj K L D F → Bool) (hq : ∀ o g, q { o with globalId := g } = q o) :
    v.keysWhere ks q = w.keysWhere ks q := by
  unfold World.keysWhere
  apply List.filter_congr
  intro k _
  rcases find_sim h k with ⟨h1, h2⟩ | ⟨o, p, h1, h2, hop⟩
  · simp [h1, h2]
  · simp only [h1, h2]
    rw [hop.same]
    exact hq _ _

theorem filter_sim {a b : List (Obj K L D F)} (h : List.Forall₂ (OSim S) a b) (q : Obj K L D F → Bool)
    (hq : ∀ o g, q { o with globalId := g } = q o) : List.Forall₂ (OSim S) (a.filter q) (b.filter q) := by
  induction h with
  | nil => exact .nil
  | @cons x y l m hxy _ ih =>
    have : q y = q x := by rw [hxy.same]; exact hq _ _
    by_cases hx : q x = true
    · simp only [List.filter_cons, this, hx, if_true]
      exact .cons hxy ih
    · simp only [List.filter_cons, this, hx]
      exact ih

/-! ### Distances -/

theorem forall2_any {α β : Type} {R : α → β → Prop} {a : List α} {b : List β}
    (h : List.Forall₂ R a b) {p : α → Bool} {q : β → Bool} (hpq : ∀ x y, R x y → q y = p x) :
    b.any q = a.any p := by
  induction h with
  | nil => rfl
  | cons h _ ih => simp [hpq _ _ h, ih]

theorem scalarDistances_sim [Top D] [DecidableEq L] {C C' O O' : Type} {labC : C → L} {labO : O → L}
    {labC' : C' → L} {labO' : O' → L} {f : C → O → Option (Option D)} {f' : C' → O' → Option (Option D)}
    {R : O → O' → Prop} {Q : C → C' → Prop} {objects : List O} {objects' : List O'} {cands : List C}
    {cands' : List C'} (ho : List.Forall₂ R objects objects') (hc : List.Forall₂ Q cands cands')
    (hlo : ∀ o o', R o o' → labO' o' = labO o) (hlc : ∀ c c', Q c c' → labC' c' = labC c)
    (hf : ∀ c c' o o', Q c c' → R o o' → f' c' o' = f c o) :
    scalarDistances labC' labO' f' objects' cands' = scalarDistances labC labO f objects cands := by
  have hent : ∀ c c' o o', Q c c' → R o o' →
      (if labC' c' = labO' o' then f' c' o' else some (some ⊤)) =
        if labC c = labO o then f c o else some (some (⊤ : D)) := by
    intro c c' o o' h1 h2
    rw [hlo o o' h2, hlc c c' h1, hf c c' o o' h1 h2]
  unfold scalarDistances
  simp only
  rw [forall2_any hc (p := fun c => objects.any fun o =>
    (if labC c = labO o then f c o else some (some (⊤ : D))).isNone) (by
      intro c c' hcc
      apply forall2_any ho
      intro o o' hoo
      rw [hent c c' o o' hcc hoo])]
  split
  · rfl
  · rw [ho.length_eq, hc.length_eq]
    congr 2
    funext i j
    by_cases hi : i < cands.length
    · by_cases hj : j < objects.length
      · have hi' : i < cands'.length := hc.length_eq ▸ hi
        have hj' : j < objects'.length := ho.length_eq ▸ hj
        rw [List.getElem?_eq_getElem hi, List.getElem?_eq_getElem hj, List.getElem?_eq_getElem hi',
          List.getElem?_eq_getElem hj']
        simp only
        exact congrArg (·.getD (some ⊤)) (hent cands[i] cands'[i] objects[j] objects'[j]
          (List.Forall₂.get hc hi hi') (List.Forall₂.get ho hj hj'))
      · rw [List.getElem?_eq_none (by omega : objects.length ≤ j),
          List.getElem?_eq_none (by rw [← ho.length_eq]; omega : objects'.length ≤ j)]
        cases cands'[i]? <;> cases cands[i]? <;> rfl
    · rw [List.getElem?_eq_none (by omega : cands.length ≤ i),
        List.getElem?_eq_none (by rw [← hc.length_eq]; omega : cands'.length ≤ i)]

theorem vectorizedDistances_map [Top D] {C O C' O' : Type} (strC : C → String) (strO : O → String)
    (ptsC : C → List K) (ptsO : O → List K) (strC' : C' → String) (strO' : O' → String)
    (ptsC' : C' → List K) (ptsO' : O' → List K)
    (f : List (List K) → List (List K) → Option (Mat (Option D))) (objects : List O) (cands : List C)
    (objects' : List O') (cands' : List C')
    (hc : cands'.map (fun c => (strC' c, ptsC' c)) = cands.map (fun c => (strC c, ptsC c)))
    (ho : objects'.map (fun c => (strO' c, ptsO' c)) = objects.map (fun c => (strO c, ptsO c))) :
    vectorizedDistances strC' strO' ptsC' ptsO' f objects' cands' =
      vectorizedDistances strC strO ptsC ptsO f objects cands := by
  have key : ∀ {C O : Type} (strC : C → String) (strO : O → String) (ptsC : C → List K)
      (ptsO : O → List K) (objects : List O) (cands : List C),
      vectorizedDistances strC strO ptsC ptsO f objects cands =
        vectorizedDistances (D := D) Prod.fst Prod.fst Prod.snd Prod.snd f
          (objects.map (fun c => (strO c, ptsO c))) (cands.map (fun c => (strC c, ptsC c))) := by
    intro C O strC strO ptsC ptsO objects cands
    unfold vectorizedDistances
    simp only [List.any_map, List.filter_map, List.map_map, Function.comp_def, List.length_map]
    congr 3
    funext i j
    simp only [List.getElem?_map]
    cases cands[i]? <;> cases objects[j]? <;>
      simp [List.map_take, List.countP_map, Function.comp_def, ← List.map_take]
  rw [key, key strC, hc, ho]

theorem HSim.refl (h : Ref → Det K L X) : HSim S h h h h := ⟨fun _ _ => rfl, fun _ _ => rfl, fun _ _ => rfl⟩

theorem OSim.view {h h' : Ref → Det K L X} (hh : HSim S h0 h0' h h') {o p : Obj K L D F} (hop : OSim S o p) :
    p.view h' = { o.view h with obj := { (o.view h).obj with globalId := p.globalId } } := by
  have hp : p.view h' = ({ o with globalId := p.globalId } : Obj K L D F).view h' := by rw [← hop.same]
  rw [hp]
  unfold Obj.view
  simp only [hh.same _ hop.last]
  congr 1
  exact List.map_congr_left (fun r hr => hh.same r (hop.past r hr))

variable [LinearOrder K] [Zero K] [LinearOrder D] [OrderTop D] [Zero D] [DecidableEq L]

theorem detDistances_sim {cfg : Cfg K L D F X} (hcfg : IgnoresGlobalId cfg) {h h' : Ref → Det K L X}
    (hh : HSim S h0 h0' h h') {a b : List (Obj K L D F)} (hab : List.Forall₂ (OSim S) a b)
    {dets : List Ref} (hd : ∀ r ∈ dets, S r) :
    detDistances cfg h' b dets = detDistances cfg h a dets := by
  have hdd : List.Forall₂ (fun r r' => r' = r ∧ S r) dets dets := by
    clear hcfg hab
    induction dets with
    | nil => exact .nil
    | cons r l ih =>
      exact .cons ⟨rfl, hd r (List.mem_cons_self ..)⟩ (ih fun q hq => hd q (List.mem_cons_of_mem _ hq))
  unfold detDistances
  split
  · rename_i f hf
    apply scalarDistances_sim hab hdd
    · intro o o' hoo
      rw [hoo.same]
    · rintro c c' ⟨rfl, hc⟩
      rw [hh.same _ hc]
    · rintro c c' o o' ⟨rfl, hc⟩ hoo
      rw [hh.same _ hc, hoo.view hh]
      exact hcfg.1 f hf _ _ _
  · rename_i str f hf
    apply vectorizedDistances_map
    · apply List.map_congr_left
      intro r hr
      rw [hh.same r (hd r hr)]
    · clear hd hdd
      induction hab with
      | nil => rfl
      | cons hoo _ ih =>
        simp only [List.map_cons, ih]
        congr 1
        rw [hoo.same]
        rfl

theorem reidDistances_sim {cfg : Cfg K L D F X} (hcfg : IgnoresGlobalId cfg) {f} (hf : cfg.reid = some f)
    {h h' : Ref → Det K L X} (hh : HSim S h0 h0' h h') {a b c d : List (Obj K L D F)}
    (hab : List.Forall₂ (OSim S) a b) (hcd : List.Forall₂ (OSim S) c d) :
    reidDistances f h' b d = reidDistances f h a c := by
  unfold reidDistances
  apply scalarDistances_sim hab hcd
  · intro o o' hoo
    rw [hoo.same]
  · intro o o' hoo
    rw [hoo.same]
  · intro c c' o o' hcc hoo
    rw [hcc.view hh, hoo.view hh]
    exact hcfg.2 f hf _ _ _ _

theorem setMins_sim (thr : D) (M : Mat D) (ks : List Nat) :
    ∀ (j : Nat) (w v : World K L D F X), WSim S h0 h0' w v →
      WSim S h0 h0' (setMins thr M j ks w) (setMins thr M j ks v) := by
  induction ks with
  | nil => exact fun _ _ _ h => h
  | cons k ks ih =>
    intro j w v h
    unfold setMins
    apply ih
    rcases find_sim h k with ⟨h1, h2⟩ | ⟨o, p, h1, h2, hop⟩
    · simpa [h1, h2] using h
    · simp only [h1, h2]
      apply put_sim h
      refine ⟨?_, hop.last, hop.past⟩
      rw [hop.same]

/-! ### Objects -/

theorem setAge_sim {h h' : Ref → Det K L X} (hh : HSim S h0 h0' h h') {r : Ref} (hr : S r) (a : Int) :
    HSim S h0 h0' (setAge h r a) (setAge h' r a) := by
  refine ⟨?_, ?_, ?_⟩
  · intro q hq
    unfold setAge
    rw [hh.same r hr, hh.same q hq]
  · intro q hq
    unfold setAge
    rw [if_neg (fun e : q = r => hq (e ▸ hr))]
    exact hh.left q hq
  · intro q hq
    unfold setAge
    rw [if_neg (fun e : q = r => hq (e ▸ hr))]
    exact hh.right q hq

theorem transformDet_sim {h h' : Ref → Det K L X} (hh : HSim S h0 h0' h h') {r : Ref} (hr : S r)
    (c : CoordTrans K) : HSim S h0 h0' (transformDet c h r) (transformDet c h' r) := by
  refine ⟨?_, ?_, ?_⟩
  · intro q hq
    unfold transformDet
    rw [hh.same r hr, hh.same q hq]
  · intro q hq
    unfold transformDet
    rw [if_neg (fun e : q = r => hq (e ▸ hr))]
    exact hh.left q hq
  · intro q hq
    unfold transformDet
    rw [if_neg (fun e : q = r => hq (e ▸ hr))]
    exact hh.right q hq

theorem condAdd_sim {h h' : Ref → Det K L X} (hh : HSim S h0 h0' h h') (n : Nat) (age : Int)
    {past : List Ref} (hp : ∀ r ∈ past, S r) {r : Ref} (hr : S r) :
    (condAdd n age h past r = none ∧ condAdd n age h' past r = none) ∨
    ∃ g g' past', condAdd n age h past r = some (g, past') ∧ condAdd n age h' past r = some (g', past') ∧
      HSim S h0 h0' g g' ∧ ∀ q ∈ past', S q := by
  unfold condAdd
  split
  · exact Or.inr ⟨_, _, _, rfl, rfl, hh, hp⟩
  split
  · refine Or.inr ⟨_, _, _, rfl, rfl, setAge_sim hh hr _, ?_⟩
    intro q hq
    rcases List.mem_append.mp hq with hq | hq
    · exact hp q hq
    · exact List.mem_singleton.mp hq ▸ hr
  split
  · exact Or.inr ⟨_, _, _, rfl, rfl, hh, hp⟩
  · rename_i p rest _
    rw [hh.same p (hp p (List.mem_cons_self ..))]
    split
    · exact Or.inl ⟨rfl, rfl⟩
    · split
      · refine Or.inr ⟨_, _, _, rfl, rfl, setAge_sim hh hr _, ?_⟩
        intro q hq
        rcases List.mem_append.mp hq with hq | hq
        · exact hp q (List.mem_cons_of_mem _ hq)
        · exact List.mem_singleton.mp hq ▸ hr
      · exact Or.inr ⟨_, _, _, rfl, rfl, hh, hp⟩

theorem condAddAll_sim (n : Nat) (age : Int) (rs : List Ref) : ∀ (h h' : Ref → Det K L X) (past : List Ref),
    HSim S h0 h0' h h' → (∀ r ∈ past, S r) → (∀ r ∈ rs, S r) →
    HSim S h0 h0' (condAddAll n age h past rs).1 (condAddAll n age h' past rs).1 ∧
    (condAddAll n age h' past rs).2 = (condAddAll n age h past rs).2 ∧
    ∀ q ∈ (condAddAll n age h past rs).2.1, S q := by
  induction rs with
  | nil => exact fun h h' past hh hp _ => ⟨hh, rfl, hp⟩
  | cons r rs ih =>
    intro h h' past hh hp hrs
    unfold condAddAll
    rcases condAdd_sim hh n age hp (hrs r (List.mem_cons_self ..)) with ⟨h1, h2⟩ | ⟨g, g', past', h1, h2, h3, h4⟩
    · simp only [h1, h2]
      exact ⟨hh, trivial, hp⟩
    · simp only [h1, h2]
      exact ih g g' past' h3 h4 (fun q hq => hrs q (List.mem_cons_of_mem _ hq))

theorem hitSensors_globalId (cfg : Cfg K L D F X) (d : Det K L X) (period : Int) (o : Obj K L D F) (g) :
    hitSensors cfg d period { o with globalId := g } =
      ({ (hitSensors cfg d period o).1 with globalId := g }, (hitSensors cfg d period o).2) := by
  unfold hitSensors
  simp only
  split
  · rfl
  split
  · rfl
  split
  · rfl
  · rfl

theorem hitSensors_refs (cfg : Cfg K L D F X) (d : Det K L X) (period : Int) (o : Obj K L D F) :
    (hitSensors cfg d period o).1.lastDet = o.lastDet ∧ (hitSensors cfg d period o).1.past = o.past ∧
      (hitSensors cfg d period o).1.globalId = o.globalId := by
  unfold hitSensors
  simp only
  split
  · exact ⟨rfl, rfl, rfl⟩
  split
  · exact ⟨rfl, rfl, rfl⟩
  split
  · exact ⟨rfl, rfl, rfl⟩
  · exact ⟨rfl, rfl, rfl⟩

theorem hitObj_sim (cfg : Cfg K L D F X) {h h' : Ref → Det K L X} (hh : HSim S h0 h0' h h') (g g' c : Nat)
    {o p : Obj K L D F} (hop : OSim S o p) {r : Ref} (hr : S r) (period : Int) :
    HSim S h0 h0' (hitObj cfg h g c o r period).heap (hitObj cfg h' g' c p r period).heap ∧
    (hitObj cfg h' g' c p r period).count = (hitObj cfg h g c o r period).count ∧
    OSim S (hitObj cfg h g c o r period).obj (hitObj cfg h' g' c p r period).obj ∧
    (hitObj cfg h' g' c p r period).err = (hitObj cfg h g c o r period).err := by
  obtain ⟨gp, rfl⟩ : ∃ gp, p = { o with globalId := gp } := ⟨_, hop.same⟩
  unfold hitObj
  rcases condAdd_sim hh cfg.pastLen o.age hop.past hr with ⟨h1, h2⟩ | ⟨k, k', past', h1, h2, h3, h4⟩
  · simp only [h1, h2]
    exact ⟨hh, trivial, hop, trivial⟩
  · simp only [h1, h2]
    rw [h3.same r hr]
    split
    · refine ⟨h3, rfl, ?_, ?_⟩
      · obtain ⟨a1, a2, a3⟩ := hitSensors_refs cfg (k r) period
          { o with past := past', lastDet := r, hitCounter := min (o.hitCounter + 2 * period) cfg.hitCounterMax,
                   isInit := false, id := some (c + 1), globalId := some (g + 1) }
        refine ⟨?_, by rw [a1]; exact hr, by rw [a2]; exact h4⟩
        have := hitSensors_globalId cfg (k r) period
          { o with past := past', lastDet := r, hitCounter := min (o.hitCounter + 2 * period) cfg.hitCounterMax,
                   isInit := false, id := some (c + 1), globalId := some (g + 1) } (some (g' + 1))
        simp only at this
        simp only [this]
      · have := hitSensors_globalId cfg (k r) period
          { o with past := past', lastDet := r, hitCounter := min (o.hitCounter + 2 * period) cfg.hitCounterMax,
                   isInit := false, id := some (c + 1), globalId := some (g + 1) } (some (g' + 1))
        simp only at this
        simp only [this]
    · refine ⟨h3, rfl, ?_, ?_⟩
      · obtain ⟨a1, a2, a3⟩ := hitSensors_refs cfg (k r) period
          { o with past := past', lastDet := r, hitCounter := min (o.hitCounter + 2 * period) cfg.hitCounterMax }
        refine ⟨?_, by rw [a1]; exact hr, by rw [a2]; exact h4⟩
        have := hitSensors_globalId cfg (k r) period
          { o with past := past', lastDet := r, hitCounter := min (o.hitCounter + 2 * period) cfg.hitCounterMax } gp
        simp only at this
        simp only [this]
      · have := hitSensors_globalId cfg (k r) period
          { o with past := past', lastDet := r, hitCounter := min (o.hitCounter + 2 * period) cfg.hitCounterMax } gp
        simp only at this
        simp only [this]

theorem mergeObj_sim (cfg : Cfg K L D F X) {h h' : Ref → Det K L X} (hh : HSim S h0 h0' h h')
    {o p c q : Obj K L D F} (hop : OSim S o p) (hcq : OSim S c q) :
    HSim S h0 h0' (mergeObj cfg h o c).1 (mergeObj cfg h' p q).1 ∧
    OSim S (mergeObj cfg h o c).2.1 (mergeObj cfg h' p q).2.1 ∧
    (mergeObj cfg h' p q).2.2 = (mergeObj cfg h o c).2.2 := by
  obtain ⟨gp, rfl⟩ : ∃ gp, p = { o with globalId := gp } := ⟨_, hop.same⟩
  obtain ⟨gq, rfl⟩ : ∃ gq, q = { c with globalId := gq } := ⟨_, hcq.same⟩
  obtain ⟨h1, h2, h3⟩ := condAddAll_sim cfg.pastLen o.age c.past h h' o.past hh hop.past hcq.past
  unfold mergeObj
  simp only
  refine ⟨h1, ⟨?_, hcq.last, h3⟩, ?_⟩
  · rw [h2]
  · rw [h2]

/-! ### Stages -/

/-- same result, similar states -/
def RSim {α : Type} (S : Ref → Prop) (h0 h0' : Ref → Det K L X) (a b : World K L D F X × Except Err α) :
    Prop :=
  WSim S h0 h0' a.1 b.1 ∧ b.2 = a.2

theorem hitLoop_sim (cfg : Cfg K L D F X) (thr : D) (period : Int) (M : Mat D) {dets : List Ref}
    (hd : ∀ r ∈ dets, S r) (keys : List Nat) (ps : List (Nat × Nat)) :
    ∀ (w v : World K L D F X) (out : StageOut Ref), WSim S h0 h0' w v →
      RSim S h0 h0' (hitLoop cfg thr period M dets keys ps w out)
        (hitLoop cfg thr period M dets keys ps v out) := by
  induction ps with
  | nil => exact fun w v out h => ⟨h, rfl⟩
  | cons p ps ih =>
    intro w v out h
    obtain ⟨i, j⟩ := p
    unfold hitLoop
    split
    · rename_i r k hr hk
      split
      · rcases find_sim h k with ⟨h1, h2⟩ | ⟨o, p, h1, h2, hop⟩
        · simp only [h1, h2]
          exact ih w v out h
        · simp only [h1, h2]
          obtain ⟨a1, a2, a3, a4⟩ := hitObj_sim cfg h.heap w.gcount v.gcount w.count hop
            (hd r (List.mem_of_getElem? hr)) period
          rw [h.count, a4]
          split
          · exact ⟨put_sim (w := { w with heap := _, gcount := _, count := _ }) 
              (v := { v with heap := _, gcount := _, count := _ }) ⟨a1, a2, h.initCount, h.objs⟩ a3, rfl⟩
          · apply ih
            apply put_sim (w := { w with heap := _, gcount := _, count := _ })
              (v := { v with heap := _, gcount := _, count := _ }) ⟨a1, a2, h.initCount, h.objs⟩
            refine ⟨?_, a3.last, a3.past⟩
            rw [a3.same]
      · exact ih w v _ h
    · exact ih w v out h

theorem mergeLoop_sim (cfg : Cfg K L D F X) (thr : D) (M : Mat D) (cands keys : List Nat)
    (ps : List (Nat × Nat)) :
    ∀ (w v : World K L D F X) (out : StageOut Nat), WSim S h0 h0' w v →
      RSim S h0 h0' (mergeLoop cfg thr M cands keys ps w out) (mergeLoop cfg thr M cands keys ps v out) := by
  induction ps with
  | nil => exact fun w v out h => ⟨h, rfl⟩
  | cons p ps ih =>
    intro w v out h
    obtain ⟨i, j⟩ := p
    unfold mergeLoop
    split
    · rename_i c k hc hk
      split
      · rcases find_sim h c with ⟨h1, h2⟩ | ⟨oc, pc, h1, h2, hcp⟩
        · simp only [h1, h2]
          exact ih w v out h
        rcases find_sim h k with ⟨h3, h4⟩ | ⟨o, p, h3, h4, hop⟩
        · simp only [h1, h2, h3, h4]
          exact ih w v out h
        · simp only [h1, h2, h3, h4]
          obtain ⟨a1, a2, a3⟩ := mergeObj_sim cfg h.heap hop hcp
          rw [a3]
          have hput := put_sim (w := { w with heap := (mergeObj cfg w.heap o oc).1 })
              (v := { v with heap := (mergeObj cfg v.heap p pc).1 }) ⟨a1, h.count, h.initCount, h.objs⟩ a2
          split
          · exact ⟨hput, rfl⟩
          · apply ih
            refine ⟨hput.heap, hput.count, hput.initCount, ?_⟩
            exact filter_sim hput.objs _ (fun o g => rfl)
      · exact ih w v _ h
    · exact ih w v out h

theorem stageDet_sim {cfg : Cfg K L D F X} (hcfg : IgnoresGlobalId cfg) (period : Int)
    {w v : World K L D F X} (h : WSim S h0 h0' w v) (keys : List Nat) {dets : List Ref}
    (hd : ∀ r ∈ dets, S r) :
    RSim S h0 h0' (stageDet cfg period w keys dets) (stageDet cfg period v keys dets) := by
  unfold stageDet
  split
  · exact ⟨h, rfl⟩
  rw [detDistances_sim hcfg h.heap (objects_sim h keys) hd]
  split
  · exact ⟨h, rfl⟩
  rename_i M _
  split
  · exact ⟨h, rfl⟩
  simp only
  have h1 : WSim S h0 h0'
      (if (M.map (fun x => x.getD ⊤)).anyNonzero = true then setMins cfg.thr (M.map (fun x => x.getD ⊤)) 0 keys w else w)
      (if (M.map (fun x => x.getD ⊤)).anyNonzero = true then setMins cfg.thr (M.map (fun x => x.getD ⊤)) 0 keys v else v) := by
    split
    · exact setMins_sim _ _ _ _ _ _ h
    · exact h
  split
  · exact ⟨h1, rfl⟩
  split
  · exact hitLoop_sim cfg _ _ _ hd _ _ _ _ _ h1
  · exact ⟨h1, rfl⟩

theorem reidStage_sim {cfg : Cfg K L D F X} (hcfg : IgnoresGlobalId cfg)
    {w v : World K L D F X} (h : WSim S h0 h0' w v) (keys cands : List Nat) :
    RSim S h0 h0' (reidStage cfg w keys cands) (reidStage cfg v keys cands) := by
  unfold reidStage
  split
  · exact ⟨h, rfl⟩
  rename_i f hf
  unfold stageReid
  split
  · exact ⟨h, rfl⟩
  rw [reidDistances_sim hcfg hf h.heap (objects_sim h keys) (objects_sim h cands)]
  split
  · exact ⟨h, rfl⟩
  rename_i M _
  split
  · exact ⟨h, rfl⟩
  simp only
  have h1 : WSim S h0 h0'
      (if (M.map (fun x => x.getD ⊤)).anyNonzero = true then setMins cfg.reidThr (M.map (fun x => x.getD ⊤)) 0 keys w else w)
      (if (M.map (fun x => x.getD ⊤)).anyNonzero = true then setMins cfg.reidThr (M.map (fun x => x.getD ⊤)) 0 keys v else v) := by
    split
    · exact setMins_sim _ _ _ _ _ _ h
    · exact h
  split
  · exact ⟨h1, rfl⟩
  split
  · exact mergeLoop_sim cfg _ _ _ _ _ _ _ _ h1
  · exact ⟨h1, rfl⟩

theorem createObj_sim (cfg : Cfg K L D F X) {w v : World K L D F X} (h : WSim S h0 h0' w v) {r : Ref}
    (hr : S r) (period : Int) (ct : Option (CoordTrans K)) :
    WSim S h0 h0' (createObj cfg w r period ct) (createObj cfg v r period ct) := by
  unfold createObj
  simp only
  refine ⟨setAge_sim h.heap hr _, ?_, by simp only [h.initCount], ?_⟩
  · simp only [h.count]
  · refine List.rel_append h.objs (.cons ?_ .nil)
    rw [h.heap.same r hr, h.count, h.initCount]
    cases ct with
    | none =>
      refine ⟨rfl, hr, ?_⟩
      intro q hq
      simp only [Obj.updateCT] at hq
      split at hq
      · exact List.mem_singleton.mp hq ▸ hr
      · cases hq
    | some c =>
      refine ⟨rfl, hr, ?_⟩
      intro q hq
      simp only [Obj.updateCT] at hq
      split at hq
      · exact List.mem_singleton.mp hq ▸ hr
      · cases hq

theorem foldl_create_sim (cfg : Cfg K L D F X) (period : Int) (ct : Option (CoordTrans K)) (l : List Ref) :
    ∀ w v : World K L D F X, WSim S h0 h0' w v → (∀ r ∈ l, S r) →
      WSim S h0 h0' (l.foldl (fun w r => createObj cfg w r period ct) w)
        (l.foldl (fun w r => createObj cfg w r period ct) v) := by
  induction l with
  | nil => exact fun _ _ h _ => h
  | cons r l ih =>
    intro w v h hl
    exact ih _ _ (createObj_sim cfg h (hl r (List.mem_cons_self ..)) period ct)
      (fun q hq => hl q (List.mem_cons_of_mem _ hq))

theorem survivors_sim (cfg : Cfg K L D F X) {a b : List (Obj K L D F)} (h : List.Forall₂ (OSim S) a b) :
    List.Forall₂ (OSim S) (survivors cfg a) (survivors cfg b) := by
  unfold survivors
  split <;> exact filter_sim h _ (fun _ _ => rfl)

theorem map_initId_sim {a b : List (Obj K L D F)} (h : List.Forall₂ (OSim S) a b) :
    b.map (·.initId) = a.map (·.initId) := by
  induction h with
  | nil => rfl
  | cons hxy _ ih =>
    simp only [List.map_cons, ih]
    rw [hxy.same]

theorem advance_sim (cfg : Cfg K L D F X) (ct : Option (CoordTrans K)) {w v : World K L D F X}
    (h : WSim S h0 h0' w v) : WSim S h0 h0' (advance cfg ct w) (advance cfg ct v) := by
  refine ⟨h.heap, h.count, h.initCount, ?_⟩
  simp only [advance, List.forall₂_map_left_iff, List.forall₂_map_right_iff]
  refine (survivors_sim cfg h.objs).imp ?_
  intro o p hop
  obtain ⟨gp, rfl⟩ : ∃ gp, p = { o with globalId := gp } := ⟨_, hop.same⟩
  cases ct with
  | none => exact ⟨rfl, hop.last, hop.past⟩
  | some c => exact ⟨rfl, hop.last, hop.past⟩

/-- similar results of `update`: the same error, or lists of objects that are equal up to `global_id` -/
inductive OutSim (S : Ref → Prop) :
    Except Err (List (Obj K L D F)) → Except Err (List (Obj K L D F)) → Prop
  | error (e) : OutSim S (.error e) (.error e)
  | ok {a b} : List.Forall₂ (OSim S) a b → OutSim S (.ok a) (.ok b)

theorem updateCore_sim {cfg : Cfg K L D F X} (hcfg : IgnoresGlobalId cfg) {w v : World K L D F X}
    (h : WSim S h0 h0' w v) {dets : List Ref} (hd : ∀ r ∈ dets, S r) (period : Int)
    (ct : Option (CoordTrans K)) :
    WSim S h0 h0' (updateCore cfg w dets period ct).1 (updateCore cfg v dets period ct).1 ∧
    OutSim S (updateCore cfg w dets period ct).2 (updateCore cfg v dets period ct).2 := by
  have halive : aliveKeys cfg v.objs = aliveKeys cfg w.objs := by
    unfold aliveKeys
    split
    · exact map_initId_sim (survivors_sim cfg h.objs)
    · exact map_initId_sim (filter_sim (survivors_sim cfg h.objs) _ (fun _ _ => rfl))
  have hdead : deadKeys cfg v.objs = deadKeys cfg w.objs := by
    unfold deadKeys
    split
    · rfl
    · exact map_initId_sim (filter_sim (survivors_sim cfg h.objs) _ (fun _ _ => rfl))
  have h1 := advance_sim cfg ct h
  have hk1 := keysWhere_sim h1 (aliveKeys cfg w.objs) (fun o => !o.isInit) (fun _ _ => rfl)
  obtain ⟨s1, e1⟩ := stageDet_sim hcfg period h1
    ((advance cfg ct w).keysWhere (aliveKeys cfg w.objs) (fun o => !o.isInit)) hd
  unfold updateCore
  simp only
  rw [halive, hdead, hk1]
  generalize hx : stageDet cfg period (advance cfg ct w)
    ((advance cfg ct w).keysWhere (aliveKeys cfg w.objs) (fun o => !o.isInit)) dets = x at s1 e1
  generalize hy : stageDet cfg period (advance cfg ct v)
    ((advance cfg ct w).keysWhere (aliveKeys cfg w.objs) (fun o => !o.isInit)) dets = y at s1 e1
  obtain ⟨w1, r1⟩ := x
  obtain ⟨v1, r1'⟩ := y
  simp only at e1 s1
  subst e1
  cases r1' with
  | error e => exact ⟨s1, .error e⟩
  | ok out1 =>
    simp only
    have hd1 : ∀ r ∈ out1.unmatchedC, S r := fun r hr => hd r ((stageDet_out_sub cfg period _ _ _ hx).1 r hr)
    have hk2 := keysWhere_sim s1 (aliveKeys cfg w.objs) (fun o => o.isInit) (fun _ _ => rfl)
    rw [hk2]
    obtain ⟨s2, e2⟩ := stageDet_sim hcfg period s1
      (w1.keysWhere (aliveKeys cfg w.objs) (fun o => o.isInit)) hd1
    generalize hx2 : stageDet cfg period w1 
      (w1.keysWhere (aliveKeys cfg w.objs) (fun o => o.isInit)) out1.unmatchedC = x at s2 e2
    generalize stageDet cfg period v1
      (w1.keysWhere (aliveKeys cfg w.objs) (fun o => o.isInit)) out1.unmatchedC = y at s2 e2
    obtain ⟨w2, r2⟩ := x
    obtain ⟨v2, r2'⟩ := y
    simp only at e2 s2
    subst e2
    cases r2' with
    | error e => exact ⟨s2, .error e⟩
    | ok out2 =>
      simp only
      have hd2 : ∀ r ∈ out2.unmatchedC, S r := fun r hr => hd1 r ((stageDet_out_sub cfg period _ _ _ hx2).1 r hr)
      obtain ⟨s3, e3⟩ := reidStage_sim hcfg s2 (out1.unmatchedO ++ deadKeys cfg w.objs) out2.matchedO
      generalize reidStage cfg w2 (out1.unmatchedO ++ deadKeys cfg w.objs) out2.matchedO = x at s3 e3
      generalize reidStage cfg v2 (out1.unmatchedO ++ deadKeys cfg w.objs) out2.matchedO = y at s3 e3
      obtain ⟨w3, r3⟩ := x
      obtain ⟨v3, r3'⟩ := y
      simp only at e3 s3
      subst e3
      cases r3' with
      | error e => exact ⟨s3, .error e⟩
      | ok out3 =>
        have h4 := foldl_create_sim cfg period ct out2.unmatchedC _ _ s3 hd2
        exact ⟨h4, .ok (filter_sim h4.objs _ (fun _ _ => rfl))⟩

theorem transform_sim (c : CoordTrans K) (l : List Ref) : ∀ h h' : Ref → Det K L X, HSim S h0 h0' h h' →
    (∀ r ∈ l, S r) → HSim S h0 h0' (l.foldl (transformDet c) h) (l.foldl (transformDet c) h') := by
  induction l with
  | nil => exact fun _ _ h _ => h
  | cons r l ih =>
    intro h h' hh hl
    exact ih _ _ (transformDet_sim hh (hl r (List.mem_cons_self ..)) c)
      (fun q hq => hl q (List.mem_cons_of_mem _ hq))

theorem update_sim {cfg : Cfg K L D F X} (hcfg : IgnoresGlobalId cfg) {w v : World K L D F X}
    (h : WSim S h0 h0' w v) {dets : Option (List Ref)} (hd : ∀ r ∈ dets.getD [], S r) (period : Int)
    (ct : Option (CoordTrans K)) :
    WSim S h0 h0' (update cfg w dets period ct).1 (update cfg v dets period ct).1 ∧
    OutSim S (update cfg w dets period ct).2 (update cfg v dets period ct).2 := by
  unfold update
  simp only [updateCoreNone_eq]
  split
  · exact ⟨h, .error _⟩
  · rename_i c l
    exact updateCore_sim hcfg (w := { w with heap := l.foldl (transformDet c) w.heap })
      (v := { v with heap := l.foldl (transformDet c) v.heap })
      ⟨transform_sim c l _ _ h.heap hd, h.count, h.initCount, h.objs⟩ hd period _
  · exact updateCore_sim hcfg h (by simp) period none
  · exact updateCore_sim hcfg h hd period none

/-- everything the tracker knows is in `S`, and only that has changed since `h0` -/
structure Within (S : Ref → Prop) (h0 : Ref → Det K L X) (w : World K L D F X) : Prop where
  heap : HSim S h0 h0 w.heap w.heap
  objs : ∀ o ∈ w.objs, OSim S o o

theorem Within.put {w : World K L D F X} {h : Ref → Det K L X} {g c : Nat} (hw : Within S h0 w)
    (hh : HSim S h0 h0 h h) {o : Obj K L D F} (ho : OSim S o o) : Within S h0 (w.after h g c o) := by
  refine ⟨hh, fun p hp => ?_⟩
  rcases World.mem_put hp with ⟨rfl, _⟩ | ⟨h1, h2⟩
  · exact ho
  · exact hw.objs p h1

theorem Micro.within {adv : Bool} {cfg : Cfg K L D F X} {dets : List Ref} {period : Int}
    {ct : Option (CoordTrans K)} {w w' : World K L D F X} (h : Micro adv cfg dets period ct w w')
    (hd : ∀ r ∈ dets, S r) (hw : Within S h0 w) : Within S h0 w' := by
  cases h with
  | transform c r _ hc hr => exact ⟨transformDet_sim hw.heap (hd r hr) c, hw.objs⟩
  | advance _ =>
    refine ⟨hw.heap, fun p hp => ?_⟩
    obtain ⟨o, ho, rfl⟩ := List.mem_map.mp hp
    have hs := hw.objs o ((survivors_sublist cfg w.objs).subset ho)
    cases ct with
    | none => exact ⟨rfl, hs.last, hs.past⟩
    | some c => exact ⟨rfl, hs.last, hs.past⟩
  | setMin o v hf _ =>
    have ho := hw.objs o (World.find_some hf).1
    exact hw.put (g := w.gcount) (c := w.count) hw.heap ⟨rfl, ho.last, ho.past⟩
  | hit o r d res hf hr _ _ hres _ =>
    obtain ⟨a1, _, a3, _⟩ := hitObj_sim cfg hw.heap w.gcount w.gcount w.count
      (hw.objs o (World.find_some hf).1) (hd r hr) period
    rw [← hres] at a1 a3
    exact hw.put a1 ⟨rfl, a3.last, a3.past⟩
  | hitErr o r e res hf hr _ hres _ =>
    obtain ⟨a1, _, a3, _⟩ := hitObj_sim cfg hw.heap w.gcount w.gcount w.count
      (hw.objs o (World.find_some hf).1) (hd r hr) period
    rw [← hres] at a1 a3
    exact hw.put a1 a3
  | merge o c heap' o' hf hfc _ _ _ hm =>
    obtain ⟨a1, a2, _⟩ := mergeObj_sim cfg hw.heap (hw.objs o (World.find_some hf).1)
      (hw.objs c (World.find_some hfc).1)
    rw [hm] at a1 a2
    have := hw.put (g := w.gcount) (c := w.count) a1 a2
    exact ⟨this.heap, fun p hp => this.objs p (List.mem_filter.mp hp).1⟩
  | mergeErr o c e heap' o' hf hfc _ _ _ hm =>
    obtain ⟨a1, a2, _⟩ := mergeObj_sim cfg hw.heap (hw.objs o (World.find_some hf).1)
      (hw.objs c (World.find_some hfc).1)
    rw [hm] at a1 a2
    exact hw.put (g := w.gcount) (c := w.count) a1 a2
  | create r hr =>
    have hs : WSim S h0 h0 w w := by
      refine ⟨hw.heap, rfl, rfl, ?_⟩
      have := hw.objs
      generalize w.objs = l at this
      induction l with
      | nil => exact .nil
      | cons a l ih =>
        exact .cons (this a (List.mem_cons_self ..)) (ih fun o ho => this o (List.mem_cons_of_mem _ ho))
    have := createObj_sim cfg hs (hd r hr) period ct
    refine ⟨this.heap, ?_⟩
    have := this.objs
    intro o ho
    obtain ⟨k, hk⟩ := List.mem_iff_getElem.mp ho
    obtain ⟨hk, rfl⟩ := hk
    exact List.Forall₂.get this hk hk

theorem update_within {cfg : Cfg K L D F X} {w : World K L D F X} (hn : w.keys.Nodup)
    {dets : Option (List Ref)} (hd : ∀ r ∈ dets.getD [], S r) (period : Int) (ct : Option (CoordTrans K))
    (hw : Within S h0 w) : Within S h0 (update cfg w dets period ct).1 := by
  have := update_micros cfg w hn dets period ct
  generalize (update cfg w dets period ct).1 = w' at this
  induction this with
  | refl => exact hw
  | tail _ h ih => exact h.within hd ih

end Norfair
