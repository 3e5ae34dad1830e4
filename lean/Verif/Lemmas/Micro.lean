import Verif.Lemmas.World
import Mathlib.Logic.Relation

/-!
Every `update` (successful or not) is a sequence of small steps. Invariants are then proved step by
step.
-/

set_option linter.unusedSectionVars false

namespace Norfair

variable {K L D F X : Type}

/-! ### What the primitive operations change -/

theorem hitSensors_obj [LinearOrder K] [Zero K] (cfg : Cfg K L D F X) (d : Det K L X) (period : Int)
    (o : Obj K L D F) :
    ∃ ph fl on, (hitSensors cfg d period o).1 = { o with pointHits := ph, filter := fl, once := on } := by
  unfold hitSensors
  simp only
  split
  · exact ⟨_, _, _, rfl⟩
  · split
    · exact ⟨_, _, _, rfl⟩
    · split
      · exact ⟨_, _, _, rfl⟩
      · exact ⟨_, _, _, rfl⟩

/-- the object after the first half of `hit` -/
def hitCounters (cfg : Cfg K L D F X) (gcount count : Nat) (o : Obj K L D F) (r : Ref) (period : Int)
    (past' : List Ref) : Obj K L D F :=
  if o.isInit = true ∧ cfg.initDelay < min (o.hitCounter + 2 * period) cfg.hitCounterMax then
    { o with
      past := past', lastDet := r, hitCounter := min (o.hitCounter + 2 * period) cfg.hitCounterMax,
      isInit := false, id := some (count + 1), globalId := some (gcount + 1) }
  else
    { o with
      past := past', lastDet := r, hitCounter := min (o.hitCounter + 2 * period) cfg.hitCounterMax }

/-- the number of ids taken by a `hit` -/
def hitIds (cfg : Cfg K L D F X) (o : Obj K L D F) (period : Int) : Nat :=
  if o.isInit = true ∧ cfg.initDelay < min (o.hitCounter + 2 * period) cfg.hitCounterMax then 1 else 0

theorem hitObj_none [LinearOrder K] [Zero K] {cfg : Cfg K L D F X} {heap : Ref → Det K L X}
    {gcount count : Nat} {o : Obj K L D F} {r : Ref} {period : Int}
    (h : condAdd cfg.pastLen o.age heap o.past r = none) :
    hitObj cfg heap gcount count o r period = ⟨heap, gcount, count, o, some .typeError⟩ := by
  unfold hitObj; rw [h]

theorem hitObj_some [LinearOrder K] [Zero K] {cfg : Cfg K L D F X} {heap : Ref → Det K L X}
    {gcount count : Nat} {o : Obj K L D F} {r : Ref} {period : Int} {heap' : Ref → Det K L X}
    {past' : List Ref} (h : condAdd cfg.pastLen o.age heap o.past r = some (heap', past')) :
    hitObj cfg heap gcount count o r period =
      ⟨heap', gcount + hitIds cfg o period, count + hitIds cfg o period,
        (hitSensors cfg (heap' r) period (hitCounters cfg gcount count o r period past')).1,
        (hitSensors cfg (heap' r) period (hitCounters cfg gcount count o r period past')).2⟩ := by
  unfold hitObj hitIds hitCounters
  rw [h]
  simp only
  split <;> rfl

/-- the heap changes only in ages, and a set age stays set -/
def AgesOnly (h h' : Ref → Det K L X) : Prop :=
  ∀ r, (∃ a, h' r = { h r with age := a }) ∧ ((h r).age ≠ none → (h' r).age ≠ none)

theorem AgesOnly.refl (h : Ref → Det K L X) : AgesOnly h h := fun _ => ⟨⟨_, rfl⟩, id⟩

theorem AgesOnly.trans {h1 h2 h3 : Ref → Det K L X} (a : AgesOnly h1 h2) (b : AgesOnly h2 h3) :
    AgesOnly h1 h3 := by
  intro r
  obtain ⟨⟨x, hx⟩, h⟩ := a r
  obtain ⟨⟨y, hy⟩, h'⟩ := b r
  refine ⟨⟨y, ?_⟩, fun e => h' (h e)⟩
  rw [hy, hx]

theorem AgesOnly.label {h h' : Ref → Det K L X} (a : AgesOnly h h') (r : Ref) :
    (h' r).label = (h r).label := by
  obtain ⟨⟨x, hx⟩, _⟩ := a r; rw [hx]

theorem agesOnly_setAge (h : Ref → Det K L X) (r : Ref) (a : Int) : AgesOnly h (setAge h r a) := by
  intro r'
  unfold setAge
  split
  · rename_i e; subst e; exact ⟨⟨_, rfl⟩, fun _ => by simp⟩
  · exact ⟨⟨_, rfl⟩, id⟩

theorem agesOnly_condAdd {n : Nat} {age : Int} {h h' : Ref → Det K L X} {past past' : List Ref}
    {r : Ref} (hc : condAdd n age h past r = some (h', past')) : AgesOnly h h' := by
  unfold condAdd at hc
  split at hc
  · cases hc; exact .refl _
  · split at hc
    · cases hc; exact agesOnly_setAge _ _ _
    · split at hc
      · cases hc; exact .refl _
      · split at hc
        · cases hc
        · split at hc
          · cases hc; exact agesOnly_setAge _ _ _
          · cases hc; exact .refl _

theorem agesOnly_condAddAll {n : Nat} {age : Int} (rs : List Ref) (h : Ref → Det K L X)
    (past : List Ref) : AgesOnly h (condAddAll n age h past rs).1 := by
  induction rs generalizing h past with
  | nil => exact .refl _
  | cons r rs ih =>
    unfold condAddAll
    split
    · exact .refl _
    · rename_i hc
      exact (agesOnly_condAdd hc).trans (ih _ _)

theorem hitObj_heap [LinearOrder K] [Zero K] (cfg : Cfg K L D F X) (heap : Ref → Det K L X)
    (gcount count : Nat) (o : Obj K L D F) (r : Ref) (period : Int) :
    AgesOnly heap (hitObj cfg heap gcount count o r period).heap := by
  cases h : condAdd cfg.pastLen o.age heap o.past r with
  | none => rw [hitObj_none h]; exact .refl _
  | some p => rw [hitObj_some (heap' := p.1) (past' := p.2) h]; exact agesOnly_condAdd h

theorem hitObj_basic [LinearOrder K] [Zero K] (cfg : Cfg K L D F X) (heap : Ref → Det K L X)
    (gcount count : Nat) (o : Obj K L D F) (r : Ref) (period : Int) :
    (hitObj cfg heap gcount count o r period).obj.initId = o.initId ∧
    (hitObj cfg heap gcount count o r period).obj.label = o.label ∧
    (o.isInit = false → (hitObj cfg heap gcount count o r period).obj.isInit = false) := by
  cases h : condAdd cfg.pastLen o.age heap o.past r with
  | none => rw [hitObj_none h]; exact ⟨rfl, rfl, id⟩
  | some p =>
    rw [hitObj_some (heap' := p.1) (past' := p.2) h]
    obtain ⟨ph, fl, on, e⟩ := hitSensors_obj cfg (p.1 r) period
      (hitCounters cfg gcount count o r period p.2)
    simp only [e]
    unfold hitCounters
    split
    · exact ⟨rfl, rfl, fun _ => rfl⟩
    · exact ⟨rfl, rfl, id⟩

/-! ### Small steps -/

/-- labels that the distance of the tracker treats as the same class -/
def Compat (cfg : Cfg K L D F X) (a b : L) : Prop :=
  match cfg.dist with
  | .scalar _ => a = b
  | .vectorized str _ => str a = str b

/-- the world with the results of a method call on one object, object written back -/
def World.after (w : World K L D F X) (heap : Ref → Det K L X) (gcount count : Nat)
    (o : Obj K L D F) : World K L D F X :=
  World.put { w with heap := heap, gcount := gcount, count := count } o

/-- remove an object from `tracked_objects` -/
def World.remove (w : World K L D F X) (c : Nat) : World K L D F X :=
  { w with objs := w.objs.filter (fun p => decide (p.initId ≠ c)) }

section
variable [LinearOrder K] [Zero K] [LinearOrder D] [OrderTop D] [Zero D] [DecidableEq L]
variable {adv : Bool}

/-- One small step of an `update` with the given detections, period and transformation; with
`adv = false` the steps at the beginning (detections are transformed, all objects advance) are left
out. -/
inductive Micro (adv : Bool) (cfg : Cfg K L D F X) (dets : List Ref) (period : Int) (ct : Option (CoordTrans K)) :
    World K L D F X → World K L D F X → Prop
  | transform (w c r) : adv = true → ct = some c → r ∈ dets →
      Micro adv cfg dets period ct w { w with heap := transformDet c w.heap r }
  | advance (w) : adv = true → Micro adv cfg dets period ct w (advance cfg ct w)
  | setMin (w o v) : w.find o.initId = some o →
      (∀ d, v = some d → d < cfg.thr ∨ (cfg.reid ≠ none ∧ d < cfg.reidThr)) →
      Micro adv cfg dets period ct w (w.put { o with curMin := v })
  | hit (w o r d) (res : ObjOut K L D F X) : w.find o.initId = some o → r ∈ dets →
      Compat cfg (w.heap r).label o.label → d < cfg.thr →
      res = hitObj cfg w.heap w.gcount w.count o r period → res.err = none →
      Micro adv cfg dets period ct w
        (w.after res.heap res.gcount res.count { res.obj with lastDistance := some d })
  | hitErr (w o r e) (res : ObjOut K L D F X) : w.find o.initId = some o → r ∈ dets →
      Compat cfg (w.heap r).label o.label →
      res = hitObj cfg w.heap w.gcount w.count o r period → res.err = some e →
      Micro adv cfg dets period ct w (w.after res.heap res.gcount res.count res.obj)
  | merge (w o c heap' o') : w.find o.initId = some o → w.find c.initId = some c →
      c.initId ≠ o.initId → c.label = o.label → cfg.reid ≠ none →
      mergeObj cfg w.heap o c = (heap', o', none) →
      Micro adv cfg dets period ct w ((w.after heap' w.gcount w.count o').remove c.initId)
  | mergeErr (w o c e heap' o') : w.find o.initId = some o → w.find c.initId = some c →
      c.initId ≠ o.initId → c.label = o.label → cfg.reid ≠ none →
      mergeObj cfg w.heap o c = (heap', o', some e) →
      Micro adv cfg dets period ct w (w.after heap' w.gcount w.count o')
  | create (w r) : r ∈ dets → Micro adv cfg dets period ct w (createObj cfg w r period ct)

abbrev Micros (adv : Bool) (cfg : Cfg K L D F X) (dets : List Ref) (period : Int)
    (ct : Option (CoordTrans K)) :=
  Relation.ReflTransGen (Micro adv cfg dets period ct)

/-! ### Distances -/

theorem detDistances_spec {cfg : Cfg K L D F X} {heap : Ref → Det K L X}
    {objects : List (Obj K L D F)} {dets : List Ref} {M : Mat (Option D)}
    (h : detDistances cfg heap objects dets = some M) :
    M.rows = dets.length ∧ M.cols = objects.length ∧
    ∀ i j r o, dets[i]? = some r → objects[j]? = some o →
      ¬ Compat cfg (heap r).label o.label → M.val i j = some ⊤ := by
  unfold detDistances at h
  unfold Compat
  split at h
  · rename_i f hd
    unfold scalarDistances at h
    simp only at h
    split at h
    · cases h
    · cases h
      refine ⟨rfl, rfl, ?_⟩
      intro i j r o hi hj hne
      simp only [hi, hj, hd] at hne ⊢
      simp [hne]
  · rename_i str f hd
    unfold vectorizedDistances at h
    simp only at h
    split at h
    · cases h
    · cases h
      refine ⟨rfl, rfl, ?_⟩
      intro i j r o hi hj hne
      simp only [hi, hj, hd] at hne ⊢
      simp [hne]

theorem reidDistances_spec {f : ObjView K L D F X → ObjView K L D F X → Option (Option D)}
    {heap : Ref → Det K L X} {objects cands : List (Obj K L D F)} {M : Mat (Option D)}
    (h : reidDistances f heap objects cands = some M) :
    M.rows = cands.length ∧ M.cols = objects.length ∧
    ∀ i j (c o : Obj K L D F), cands[i]? = some c → objects[j]? = some o →
      c.label ≠ o.label → M.val i j = some ⊤ := by
  unfold reidDistances scalarDistances at h
  simp only at h
  split at h
  · cases h
  · cases h
    refine ⟨rfl, rfl, ?_⟩
    intro i j c o hi hj hne
    simp only [hi, hj]
    simp [hne]

/-! ### The loops as small steps -/

/-- `w` comes from `w0` by steps that keep identities, labels and "not initializing". -/
def Keeps (w0 w : World K L D F X) : Prop :=
  (∀ r, (w.heap r).label = (w0.heap r).label) ∧
  ∀ k o, w0.find k = some o →
    ∃ o', w.find k = some o' ∧ o'.label = o.label ∧ (o.isInit = false → o'.isInit = false)

theorem Keeps.refl (w : World K L D F X) : Keeps w w :=
  ⟨fun _ => rfl, fun _ o h => ⟨o, h, rfl, id⟩⟩

theorem Keeps.trans {a b c : World K L D F X} (h : Keeps a b) (h' : Keeps b c) : Keeps a c := by
  refine ⟨fun r => (h'.1 r).trans (h.1 r), fun k o ho => ?_⟩
  obtain ⟨o1, h1, l1, i1⟩ := h.2 k o ho
  obtain ⟨o2, h2, l2, i2⟩ := h'.2 k o1 h1
  exact ⟨o2, h2, l2.trans l1, fun hi => i2 (i1 hi)⟩

theorem Keeps.of_after {w : World K L D F X} {o o' : Obj K L D F} {heap : Ref → Det K L X}
    {g c : Nat} (hf : w.find o.initId = some o) (hid : o'.initId = o.initId)
    (hl : o'.label = o.label) (hi : o.isInit = false → o'.isInit = false)
    (hh : ∀ r, (heap r).label = (w.heap r).label) : Keeps w (w.after heap g c o') := by
  refine ⟨hh, fun k p hp => ?_⟩
  by_cases hk : k = o'.initId
  · subst hk
    have : p = o := by rw [hid, hf] at hp; exact (Option.some.inj hp).symm
    subst this
    refine ⟨o', ?_, hl, hi⟩
    unfold World.after
    apply World.find_put_self
    rw [hid]
    exact World.mem_keys_of_find (w := w) hf
  · refine ⟨p, ?_, rfl, id⟩
    unfold World.after
    rw [World.find_put_ne _ hk]
    exact hp

theorem Keeps.mem_keys {a b : World K L D F X} (h : Keeps a b) {k : Nat} (hk : k ∈ a.keys) :
    k ∈ b.keys := by
  obtain ⟨o, ho⟩ := World.find_isSome_of_mem hk
  obtain ⟨o', h', _⟩ := h.2 k o ho
  exact World.mem_keys_of_find h'

theorem argmin_lt' (f : Nat → D) {n : Nat} (hn : 0 < n) : argmin f n < n := by
  cases n with
  | zero => omega
  | succ n =>
    exact (argmin_spec f _ hn).1

theorem setMins_micros (cfg : Cfg K L D F X) (dets : List Ref) (period : Int)
    (ct : Option (CoordTrans K)) (thr : D)
    (hthr : ∀ d, d < thr → d < cfg.thr ∨ (cfg.reid ≠ none ∧ d < cfg.reidThr)) (M : Mat D)
    (ks : List Nat) (j : Nat) (w : World K L D F X) :
    Micros adv cfg dets period ct w (setMins thr M j ks w) ∧ Keeps w (setMins thr M j ks w) := by
  induction ks generalizing j w with
  | nil => exact ⟨.refl, .refl _⟩
  | cons k ks ih =>
    unfold setMins
    simp only
    cases hf : w.find k with
    | none => exact ih _ _
    | some o =>
      simp only
      obtain ⟨h1, h2⟩ := ih (j + 1)
        (w.put { o with curMin := if M.colMin j < thr then some (M.colMin j) else none })
      have hk : o.initId = k := (World.find_some hf).2
      have hf' : w.find o.initId = some o := by rw [hk]; exact hf
      refine ⟨Relation.ReflTransGen.head (Micro.setMin w o _ hf' ?_) h1, Keeps.trans ?_ h2⟩
      · intro d hd
        split at hd
        · rename_i hlt; cases hd; exact hthr _ hlt
        · cases hd
      · exact Keeps.of_after (g := w.gcount) (c := w.count) (heap := w.heap) hf' rfl rfl id (fun _ => rfl)

theorem hitLoop_micros (cfg : Cfg K L D F X) (dets0 : List Ref) (period : Int)
    (ct : Option (CoordTrans K)) (M : Mat D) (dets : List Ref) (keys : List Nat)
    (hsub : ∀ r ∈ dets, r ∈ dets0) (w0 : World K L D F X)
    (hcompat : ∀ i j r k o, dets[i]? = some r → keys[j]? = some k → w0.find k = some o →
      M.val i j < cfg.thr → Compat cfg (w0.heap r).label o.label)
    (ps : List (Nat × Nat)) (w : World K L D F X) (hk : Keeps w0 w) (out : StageOut Ref)
    (hkeys : ∀ k ∈ keys, k ∈ w0.keys) :
    Micros adv cfg dets0 period ct w (hitLoop cfg cfg.thr period M dets keys ps w out).1 ∧
    Keeps w0 (hitLoop cfg cfg.thr period M dets keys ps w out).1 := by
  induction ps generalizing w out with
  | nil => exact ⟨.refl, hk⟩
  | cons p ps ih =>
    obtain ⟨i, j⟩ := p
    unfold hitLoop
    split
    · rename_i r k hr hkj
      split
      · rename_i hlt
        split
        · rename_i o hf
          have hid : o.initId = k := (World.find_some hf).2
          have hf' : w.find o.initId = some o := by rw [hid]; exact hf
          have hrd : r ∈ dets0 := hsub r (List.mem_of_getElem? hr)
          have hcmp : Compat cfg (w.heap r).label o.label := by
            obtain ⟨o0, ho0⟩ := World.find_isSome_of_mem (hkeys k (List.mem_of_getElem? hkj))
            obtain ⟨o1, h1, l1, _⟩ := hk.2 k o0 ho0
            rw [hf] at h1
            cases h1
            rw [hk.1 r, l1]
            exact hcompat i j r k o0 hr hkj ho0 hlt
          obtain ⟨b1, b2, b3⟩ := hitObj_basic cfg w.heap w.gcount w.count o r period
          have bh := hitObj_heap cfg w.heap w.gcount w.count o r period
          simp only
          split
          · rename_i e he
            exact ⟨.single (Micro.hitErr w o r e _ hf' hrd hcmp rfl he),
              hk.trans (Keeps.of_after hf' b1 b2 b3 bh.label)⟩
          · rename_i he
            have hstep : Keeps w (w.after (hitObj cfg w.heap w.gcount w.count o r period).heap
                (hitObj cfg w.heap w.gcount w.count o r period).gcount
                (hitObj cfg w.heap w.gcount w.count o r period).count
                { (hitObj cfg w.heap w.gcount w.count o r period).obj with
                  lastDistance := some (M.val i j) }) :=
              Keeps.of_after hf' b1 b2 b3 bh.label
            obtain ⟨h1, h2⟩ := ih _ (hk.trans hstep) { out with matchedO := out.matchedO ++ [k] }
            exact ⟨Relation.ReflTransGen.head
              (Micro.hit w o r (M.val i j) _ hf' hrd hcmp hlt rfl he) h1, h2⟩
        · exact ih _ hk _
      · exact ih _ hk _
    · exact ih _ hk _

theorem Mat.getD_map_val {M : Mat (Option D)} {i j : Nat} {thr : D}
    (h : (M.map (fun x => x.getD ⊤)).val i j < thr) : M.val i j ≠ some ⊤ := by
  intro e
  simp only [Mat.map, e, Option.getD_some] at h
  exact absurd h not_top_lt

theorem stageDet_micros (cfg : Cfg K L D F X) (dets0 : List Ref) (period : Int)
    (ct : Option (CoordTrans K)) (w : World K L D F X) (keys : List Nat) (dets : List Ref)
    (hsub : ∀ r ∈ dets, r ∈ dets0) (hkeys : ∀ k ∈ keys, k ∈ w.keys) :
    Micros adv cfg dets0 period ct w (stageDet cfg period w keys dets).1 ∧
    Keeps w (stageDet cfg period w keys dets).1 := by
  unfold stageDet
  split
  · exact ⟨.refl, .refl _⟩
  · split
    · exact ⟨.refl, .refl _⟩
    · rename_i M hM
      obtain ⟨_, _, hspec⟩ := detDistances_spec hM
      split
      · exact ⟨.refl, .refl _⟩
      · simp only
        have h1 : ∀ w1, w1 = (if (M.map (fun x => x.getD ⊤)).anyNonzero = true then
            setMins cfg.thr (M.map (fun x => x.getD ⊤)) 0 keys w else w) →
            Micros adv cfg dets0 period ct w w1 ∧ Keeps w w1 := by
          intro w1 e
          subst e
          split
          · exact setMins_micros cfg dets0 period ct cfg.thr (fun d h => Or.inl h) _ _ _ _
          · exact ⟨.refl, .refl _⟩
        obtain ⟨hw1, hk1⟩ := h1 _ rfl
        split
        · exact ⟨hw1, hk1⟩
        · split
          · obtain ⟨h2, h3⟩ := hitLoop_micros cfg dets0 period ct (M.map (fun x => x.getD ⊤)) dets keys
              hsub w (by
                intro i j r k o hr hkj hf hlt
                by_contra hn
                have hobj : (w.objects keys)[j]? = some o := by
                  rw [World.objects_getElem? hkeys, hkj]; exact hf
                exact Mat.getD_map_val hlt (hspec i j r o hr hobj hn))
              _ _ hk1 _ hkeys
            exact ⟨hw1.trans h2, h3⟩
          · exact ⟨hw1, hk1⟩

theorem hitLoop_out_sub (cfg : Cfg K L D F X) (thr : D) (period : Int) (M : Mat D) (dets : List Ref)
    (keys : List Nat) (ps : List (Nat × Nat)) (w : World K L D F X) (out : StageOut Ref)
    (h1 : ∀ r ∈ out.unmatchedC, r ∈ dets) (h2 : ∀ k ∈ out.matchedO, k ∈ keys)
    (h3 : ∀ k ∈ out.unmatchedO, k ∈ keys) {w' out'}
    (h : hitLoop cfg thr period M dets keys ps w out = (w', .ok out')) :
    (∀ r ∈ out'.unmatchedC, r ∈ dets) ∧ (∀ k ∈ out'.matchedO, k ∈ keys) ∧
      ∀ k ∈ out'.unmatchedO, k ∈ keys := by
  induction ps generalizing w out with
  | nil =>
    unfold hitLoop at h
    cases h
    exact ⟨h1, h2, h3⟩
  | cons p ps ih =>
    obtain ⟨i, j⟩ := p
    unfold hitLoop at h
    split at h
    · rename_i r k hr hkj
      have hr' := List.mem_of_getElem? hr
      have hk' := List.mem_of_getElem? hkj
      split at h
      · split at h
        · simp only at h
          split at h
          · cases h
          · refine ih _ _ ?_ ?_ ?_ h
            · exact h1
            · intro a ha
              rcases List.mem_append.mp ha with ha | ha
              · exact h2 a ha
              · simp at ha; rw [ha]; exact hk'
            · exact h3
        · exact ih _ _ h1 h2 h3 h
      · refine ih _ _ ?_ ?_ ?_ h
        · intro a ha
          rcases List.mem_append.mp ha with ha | ha
          · exact h1 a ha
          · simp at ha; rw [ha]; exact hr'
        · exact h2
        · intro a ha
          rcases List.mem_append.mp ha with ha | ha
          · exact h3 a ha
          · simp at ha; rw [ha]; exact hk'
    · exact ih _ _ h1 h2 h3 h

theorem stageDet_out_sub (cfg : Cfg K L D F X) (period : Int) (w : World K L D F X)
    (keys : List Nat) (dets : List Ref) {w' out}
    (h : stageDet cfg period w keys dets = (w', .ok out)) :
    (∀ r ∈ out.unmatchedC, r ∈ dets) ∧ (∀ k ∈ out.matchedO, k ∈ keys) ∧
      ∀ k ∈ out.unmatchedO, k ∈ keys := by
  unfold stageDet at h
  split at h
  · cases h; exact ⟨by simp, by simp, fun _ h => h⟩
  · split at h
    · cases h
    · split at h
      · cases h
      · simp only at h
        split at h
        · cases h
        · split at h
          · refine hitLoop_out_sub _ _ _ _ _ _ _ _ _ ?_ (by simp) ?_ h
            · intro r hr; exact unmatchedOf_subset hr
            · intro r hr; exact unmatchedOf_subset hr
          · cases h; exact ⟨fun _ h => h, by simp, fun _ h => h⟩

theorem mergeObj_basic (cfg : Cfg K L D F X) (heap : Ref → Det K L X) (o c : Obj K L D F) :
    (mergeObj cfg heap o c).2.1.initId = o.initId ∧ (mergeObj cfg heap o c).2.1.label = o.label ∧
    (mergeObj cfg heap o c).2.1.isInit = o.isInit ∧ AgesOnly heap (mergeObj cfg heap o c).1 :=
  ⟨rfl, rfl, rfl, agesOnly_condAddAll _ _ _⟩

theorem World.find_remove (w : World K L D F X) {c k : Nat} (h : k ≠ c) :
    (w.remove c).find k = w.find k := by
  unfold World.find World.remove
  simp only
  induction w.objs with
  | nil => rfl
  | cons q l ih =>
    by_cases hq : q.initId = c
    · have h2 : decide (q.initId = k) = false := by simpa using fun e => h (by rw [← e, hq])
      rw [List.filter_cons_of_neg (by simpa using hq), List.find?_cons, h2]
      exact ih
    · rw [List.filter_cons_of_pos (by simpa using hq), List.find?_cons, List.find?_cons, ih]

/-- labels are kept along the ReID loop, as long as an object is there -/
theorem mergeLoop_micros (cfg : Cfg K L D F X) (dets0 : List Ref) (period : Int)
    (ct : Option (CoordTrans K)) (M : Mat D) (cands keys : List Nat) (hreid : cfg.reid ≠ none)
    (hdisj : ∀ c ∈ cands, ∀ k ∈ keys, c ≠ k) (lab : Nat → Option L)
    (hcompat : ∀ i j c k, cands[i]? = some c → keys[j]? = some k →
      M.val i j < cfg.reidThr → lab c = lab k)
    (ps : List (Nat × Nat)) (w : World K L D F X)
    (hlab : ∀ k o, w.find k = some o → k ∈ cands ∨ k ∈ keys → lab k = some o.label)
    (out : StageOut Nat) :
    Micros adv cfg dets0 period ct w (mergeLoop cfg cfg.reidThr M cands keys ps w out).1 := by
  induction ps generalizing w out with
  | nil => exact .refl
  | cons p ps ih =>
    obtain ⟨i, j⟩ := p
    unfold mergeLoop
    split
    · rename_i c k hc hkj
      have hc' := List.mem_of_getElem? hc
      have hk' := List.mem_of_getElem? hkj
      split
      · rename_i hlt
        split
        · rename_i oc o hfc hf
          obtain ⟨b1, b2, b3, b4⟩ := mergeObj_basic cfg w.heap o oc
          have hid : o.initId = k := (World.find_some hf).2
          have hidc : oc.initId = c := (World.find_some hfc).2
          have hf' : w.find o.initId = some o := by rw [hid]; exact hf
          have hfc' : w.find oc.initId = some oc := by rw [hidc]; exact hfc
          have hne : oc.initId ≠ o.initId := by rw [hid, hidc]; exact hdisj c hc' k hk'
          have hl : oc.label = o.label := by
            have e1 := hlab c oc hfc (Or.inl hc')
            have e2 := hlab k o hf (Or.inr hk')
            rw [hcompat i j c k hc hkj hlt, e2] at e1
            exact (Option.some.inj e1).symm
          simp only
          split
          · rename_i e he
            exact .single (Micro.mergeErr w o oc e _ _ hf' hfc' hne hl hreid
              (Prod.ext rfl (Prod.ext rfl he)))
          · rename_i he
            refine Relation.ReflTransGen.head (Micro.merge w o oc _ _ hf' hfc' hne hl hreid
              (Prod.ext rfl (Prod.ext rfl he))) ?_
            rw [hidc]
            apply ih
            intro k' p hp hk''
            by_cases hkc : k' = c
            · exfalso
              subst hkc
              have := World.find_some hp
              simp only [World.remove, List.mem_filter] at this
              have h3 := this.1.2
              rw [this.2] at h3
              simp at h3
            · rw [World.find_remove _ hkc] at hp
              by_cases hko : k' = o.initId
              · have hself : (w.after (mergeObj cfg w.heap o oc).1 w.gcount w.count
                    (mergeObj cfg w.heap o oc).2.1).find o.initId
                    = some (mergeObj cfg w.heap o oc).2.1 := by
                  unfold World.after
                  rw [← b1]
                  apply World.find_put_self
                  rw [b1]
                  exact World.mem_keys_of_find (w := w) hf'
                rw [hko, hself] at hp
                cases hp
                rw [hko, b2]
                exact hlab o.initId o hf' (by rw [hid]; exact Or.inr hk')
              · unfold World.after at hp
                rw [World.find_put_ne _ (by rw [b1]; exact hko)] at hp
                exact hlab k' p hp hk''
        · exact ih _ hlab _
      · exact ih _ hlab _
    · exact ih _ hlab _

theorem stageReid_micros (cfg : Cfg K L D F X) (dets0 : List Ref) (period : Int)
    (ct : Option (CoordTrans K)) (f : ObjView K L D F X → ObjView K L D F X → Option (Option D))
    (hreid : cfg.reid = some f) (w : World K L D F X) (keys cands : List Nat)
    (hkeys : ∀ k ∈ keys, k ∈ w.keys) (hcands : ∀ k ∈ cands, k ∈ w.keys)
    (hdisj : ∀ c ∈ cands, ∀ k ∈ keys, c ≠ k) :
    Micros adv cfg dets0 period ct w (stageReid cfg f w keys cands).1 := by
  have hr : cfg.reid ≠ none := by rw [hreid]; simp
  unfold stageReid
  split
  · exact .refl
  · split
    · exact .refl
    · rename_i M hM
      obtain ⟨_, _, hspec⟩ := reidDistances_spec hM
      split
      · exact .refl
      · simp only
        have h1 : ∀ w1, w1 = (if (M.map (fun x => x.getD ⊤)).anyNonzero = true then
            setMins cfg.reidThr (M.map (fun x => x.getD ⊤)) 0 keys w else w) →
            Micros adv cfg dets0 period ct w w1 ∧ Keeps w w1 := by
          intro w1 e
          subst e
          split
          · exact setMins_micros cfg dets0 period ct cfg.reidThr (fun d h => Or.inr ⟨hr, h⟩) _ _ _ _
          · exact ⟨.refl, .refl _⟩
        obtain ⟨hw1, hk1⟩ := h1 _ rfl
        split
        · exact hw1
        · split
          · refine hw1.trans (mergeLoop_micros cfg dets0 period ct (M.map (fun x => x.getD ⊤)) cands
              keys hr hdisj (fun k => (w.find k).map (·.label)) ?_ _ _ ?_ _)
            · intro i j c k hc hkj hlt
              obtain ⟨oc, hoc⟩ := World.find_isSome_of_mem (hcands c (List.mem_of_getElem? hc))
              obtain ⟨o, ho⟩ := World.find_isSome_of_mem (hkeys k (List.mem_of_getElem? hkj))
              simp only [hoc, ho, Option.map_some]
              congr 1
              by_contra hne
              have e1 : (w.objects cands)[i]? = some oc := by
                rw [World.objects_getElem? hcands, hc]; exact hoc
              have e2 : (w.objects keys)[j]? = some o := by
                rw [World.objects_getElem? hkeys, hkj]; exact ho
              exact Mat.getD_map_val hlt (hspec i j oc o e1 e2 hne)
            · intro k o ho hk
              have hmem : k ∈ w.keys := hk.elim (hcands k) (hkeys k)
              obtain ⟨o0, h0⟩ := World.find_isSome_of_mem hmem
              obtain ⟨o1, h1, l1, _⟩ := hk1.2 k o0 h0
              rw [ho] at h1
              cases h1
              simp [h0, l1]
          · exact hw1

/-! ### update as small steps -/

theorem survivors_sublist (cfg : Cfg K L D F X) (objs : List (Obj K L D F)) :
    (survivors cfg objs).Sublist objs := by
  unfold survivors
  split <;> exact List.filter_sublist

theorem updateCT_fields (ct : Option (CoordTrans K)) (o : Obj K L D F) :
    ∃ g, o.updateCT ct = { o with absToRel := g } := by
  unfold Obj.updateCT
  split
  · exact ⟨_, rfl⟩
  · exact ⟨_, rfl⟩

@[simp] theorem updateCT_initId (ct : Option (CoordTrans K)) (o : Obj K L D F) :
    (o.updateCT ct).initId = o.initId := by
  obtain ⟨g, h⟩ := updateCT_fields ct o; rw [h]

theorem advance_keys (cfg : Cfg K L D F X) (ct : Option (CoordTrans K)) (w : World K L D F X) :
    (advance cfg ct w).keys = (survivors cfg w.objs).map (·.initId) := by
  unfold advance World.keys
  simp only [List.map_map]
  apply List.map_congr_left
  intro o _
  simp [Obj.trackerStep]

theorem aliveKeys_sub (cfg : Cfg K L D F X) (objs : List (Obj K L D F)) {k : Nat}
    (h : k ∈ aliveKeys cfg objs) : k ∈ (survivors cfg objs).map (·.initId) := by
  unfold aliveKeys at h
  split at h
  · exact h
  · exact (List.filter_sublist.map _).subset h

theorem deadKeys_sub (cfg : Cfg K L D F X) (objs : List (Obj K L D F)) {k : Nat}
    (h : k ∈ deadKeys cfg objs) : k ∈ (survivors cfg objs).map (·.initId) := by
  unfold deadKeys at h
  split at h
  · cases h
  · exact (List.filter_sublist.map _).subset h

theorem alive_dead_disjoint (cfg : Cfg K L D F X) (objs : List (Obj K L D F))
    (hn : (objs.map (·.initId)).Nodup) {k : Nat} (h : k ∈ aliveKeys cfg objs)
    (h' : k ∈ deadKeys cfg objs) : False := by
  unfold aliveKeys at h
  unfold deadKeys at h'
  split at h
  · rename_i e; rw [e] at h'; cases h'
  · rename_i e
    rw [e] at h'
    simp only [List.mem_map, List.mem_filter] at h h'
    obtain ⟨o, ⟨ho, hp⟩, rfl⟩ := h
    obtain ⟨o', ⟨ho', hp'⟩, he⟩ := h'
    have := List.inj_on_of_nodup_map hn ((survivors_sublist cfg objs).subset ho)
      ((survivors_sublist cfg objs).subset ho') he.symm
    subst this
    simp [hp] at hp'

theorem foldl_create_micros (cfg : Cfg K L D F X) (dets0 : List Ref) (period : Int)
    (ct : Option (CoordTrans K)) (rs : List Ref) (h : ∀ r ∈ rs, r ∈ dets0) (w : World K L D F X) :
    Micros adv cfg dets0 period ct w (rs.foldl (fun w r => createObj cfg w r period ct) w) := by
  induction rs generalizing w with
  | nil => exact .refl
  | cons r rs ih =>
    rw [List.foldl_cons]
    exact Relation.ReflTransGen.head (Micro.create w r (h r (by simp)))
      (ih (fun r hr => h r (by simp [hr])) _)

theorem updateCore_micros' (cfg : Cfg K L D F X) (w : World K L D F X) (hn : w.keys.Nodup)
    (dets : List Ref) (period : Int) (ct : Option (CoordTrans K)) :
    Micros adv cfg dets period ct (advance cfg ct w) (updateCore cfg w dets period ct).1 := by
  have h0 : Micros adv cfg dets period ct (advance cfg ct w) (advance cfg ct w) := .refl
  unfold updateCore
  simp only
  set w0 := advance cfg ct w with hw0
  have hk0 : w0.keys = (survivors cfg w.objs).map (·.initId) := advance_keys cfg ct w
  have hkeys1 : ∀ k ∈ w0.keysWhere (aliveKeys cfg w.objs) (fun o => !o.isInit), k ∈ w0.keys := by
    intro k hk; rw [hk0]; exact aliveKeys_sub _ _ (World.mem_keysWhere.mp hk).1
  obtain ⟨m1, kp1⟩ := stageDet_micros cfg dets period ct w0
    (w0.keysWhere (aliveKeys cfg w.objs) (fun o => !o.isInit)) dets (fun _ h => h) hkeys1
  split
  · rename_i w1 e hs; rw [hs] at m1; exact h0.trans m1
  · rename_i w1 out1 hs
    rw [hs] at m1 kp1
    simp only at m1 kp1
    obtain ⟨sub1, _, sub1'⟩ := stageDet_out_sub cfg period w0 _ dets hs
    have hkeys2 : ∀ k ∈ w1.keysWhere (aliveKeys cfg w.objs) (fun o => o.isInit), k ∈ w1.keys := by
      intro k hk
      obtain ⟨_, o, ho, _⟩ := World.mem_keysWhere.mp hk
      exact World.mem_keys_of_find ho
    obtain ⟨m2, kp2⟩ := stageDet_micros cfg dets period ct w1
      (w1.keysWhere (aliveKeys cfg w.objs) (fun o => o.isInit)) out1.unmatchedC sub1 hkeys2
    split
    · rename_i w2 e hs2; rw [hs2] at m2; exact (h0.trans m1).trans m2
    · rename_i w2 out2 hs2
      rw [hs2] at m2 kp2
      simp only at m2 kp2
      obtain ⟨sub2, sub2', _⟩ := stageDet_out_sub cfg period w1 _ out1.unmatchedC hs2
      have h2 := (h0.trans m1).trans m2
      have hfold : ∀ w3 : World K L D F X, Micros adv cfg dets period ct w2 w3 →
          Micros adv cfg dets period ct w0
            (out2.unmatchedC.foldl (fun w r => createObj cfg w r period ct) w3) :=
        fun w3 h3 => (h2.trans h3).trans
          (foldl_create_micros cfg dets period ct _ (fun r hr => sub1 r (sub2 r hr)) _)
      have h3 : Micros adv cfg dets period ct w2
          (reidStage cfg w2 (out1.unmatchedO ++ deadKeys cfg w.objs) out2.matchedO).1 := by
        unfold reidStage
        split
        · exact .refl
        · rename_i f hf
          apply stageReid_micros cfg dets period ct f hf
          · intro k hk
            have : k ∈ w0.keys := by
              rcases List.mem_append.mp hk with hk | hk
              · exact hkeys1 k (sub1' k hk)
              · rw [hk0]; exact deadKeys_sub _ _ hk
            exact kp2.mem_keys (kp1.mem_keys this)
          · intro k hk
            exact kp2.mem_keys (hkeys2 k (sub2' k hk))
          · intro c hc k hk e
            subst e
            obtain ⟨ha, o, ho, hi⟩ := World.mem_keysWhere.mp (sub2' c hc)
            rcases List.mem_append.mp hk with hk | hk
            · obtain ⟨_, p, hp, hpi⟩ := World.mem_keysWhere.mp (sub1' c hk)
              obtain ⟨p', hp', _, hii⟩ := kp1.2 c p hp
              rw [ho] at hp'
              cases hp'
              have := hii (by simpa using hpi)
              rw [this] at hi
              cases hi
            · exact alive_dead_disjoint cfg w.objs hn ha hk
      split
      · rename_i w3 e hs3; rw [hs3] at h3; exact h2.trans h3
      · rename_i w3 out3 hs3; rw [hs3] at h3; exact hfold w3 h3

theorem updateCore_micros (cfg : Cfg K L D F X) (w : World K L D F X) (hn : w.keys.Nodup)
    (dets : List Ref) (period : Int) (ct : Option (CoordTrans K)) :
    Micros true cfg dets period ct w (updateCore cfg w dets period ct).1 :=
  Relation.ReflTransGen.head (Micro.advance w rfl) (updateCore_micros' cfg w hn dets period ct)

theorem foldl_transform_micros (cfg : Cfg K L D F X) (dets0 : List Ref) (period : Int)
    (c : CoordTrans K) (l : List Ref) (h : ∀ r ∈ l, r ∈ dets0) (w : World K L D F X) :
    Micros true cfg dets0 period (some c) w { w with heap := l.foldl (transformDet c) w.heap } := by
  induction l generalizing w with
  | nil => exact .refl
  | cons r l ih =>
    rw [List.foldl_cons]
    exact Relation.ReflTransGen.head (Micro.transform w c r rfl rfl (h r (by simp)))
      (ih (fun r hr => h r (by simp [hr])) { w with heap := transformDet c w.heap r })

/-- Every `update`, also one that raises, is a sequence of small steps. -/
theorem update_micros (cfg : Cfg K L D F X) (w : World K L D F X) (hn : w.keys.Nodup)
    (dets : Option (List Ref)) (period : Int) (ct : Option (CoordTrans K)) :
    Micros true cfg (dets.getD []) period ct w (update cfg w dets period ct).1 := by
  unfold update
  simp only [updateCoreNone_eq]
  split
  · exact .refl
  · rename_i c l
    simp only [Option.getD_some]
    exact (foldl_transform_micros cfg l period c l (fun _ h => h) w).trans
      (updateCore_micros cfg { w with heap := l.foldl (transformDet c) w.heap } hn l period (some c))
  · exact updateCore_micros cfg w hn [] period none
  · exact updateCore_micros cfg w hn _ period none

end

end Norfair
