import Verif.Spec.Edits
import Verif.Lemmas.Micro
import Mathlib.Data.List.Forall2
import Mathlib.Data.Option.Basic

/-! Lemmas for C102: `update` on two memories that agree where it matters. -/

set_option linter.unusedSectionVars false

namespace Norfair.Edits

open Norfair Norfair.Spec

variable {K L D F X Y : Type} {N : Ref → Prop} {obs : Det K L X → Y}

/-- two states that differ in the memory only -/
def Ag (N : Ref → Prop) (obs : Det K L X → Y) (w v : World K L D F X) : Prop :=
  ∃ h', AgreeOn N obs w.heap h' ∧ v = { w with heap := h' }

theorem setAge_same (ho : Ageless obs) {h h' : Ref → Det K L X} (hh : AgreeOn N obs h h') (r : Ref) (a : Int) :
    AgreeOn N obs (setAge h r a) (setAge h' r a) := by
  intro r'
  unfold setAge
  by_cases e : r' = r
  · simp only [e, if_true]
    refine ⟨trivial, ?_, fun hN => by rw [(hh r).2.2 hN]⟩
    exact (ho _ _).trans ((hh r).2.1.trans (ho _ _).symm)
  · simp only [if_neg e]
    exact hh r'

theorem condAdd_same (ho : Ageless obs) {h h' : Ref → Det K L X} (hh : AgreeOn N obs h h') (n : Nat) (age : Int)
    (past : List Ref) (r : Ref) :
    Option.Rel (fun a b => AgreeOn N obs a.1 b.1 ∧ b.2 = a.2) (condAdd n age h past r) (condAdd n age h' past r) := by
  unfold condAdd
  split
  · exact .some ⟨hh, rfl⟩
  split
  · exact .some ⟨setAge_same ho hh r age, rfl⟩
  cases past with
  | nil => exact .some ⟨hh, rfl⟩
  | cons p rest =>
    simp only [(hh p).1]
    cases (h p).age with
    | none => exact .none
    | some a =>
      simp only
      split
      · exact .some ⟨setAge_same ho hh r age, rfl⟩
      · exact .some ⟨hh, rfl⟩

theorem condAddAll_same (ho : Ageless obs) (n : Nat) (age : Int) (rs : List Ref) :
    ∀ {h h' : Ref → Det K L X} (_ : AgreeOn N obs h h') (past : List Ref),
      AgreeOn N obs (condAddAll n age h past rs).1 (condAddAll n age h' past rs).1 ∧
      (condAddAll n age h' past rs).2 = (condAddAll n age h past rs).2 := by
  induction rs with
  | nil => exact fun hh past => ⟨hh, rfl⟩
  | cons r rs ih =>
    intro h h' hh past
    unfold condAddAll
    have := condAdd_same ho hh n age past r
    generalize condAdd n age h past r = a at this
    generalize condAdd n age h' past r = b at this
    cases this with
    | none => exact ⟨hh, rfl⟩
    | @some a b hab =>
      obtain ⟨a1, a2⟩ := a
      obtain ⟨b1, b2⟩ := b
      simp only at hab
      obtain ⟨h1, rfl⟩ := hab
      exact ih h1 b2

/-- results of methods of an object that differ in the memory only -/
def AgOut (N : Ref → Prop) (obs : Det K L X → Y) (a b : ObjOut K L D F X) : Prop :=
  ∃ h', AgreeOn N obs a.heap h' ∧ b = { a with heap := h' }

theorem hitObj_same [LinearOrder K] [Zero K] (ho : Ageless obs) (cfg : Cfg K L D F X) {h h' : Ref → Det K L X}
    (hh : AgreeOn N obs h h') (g c : Nat) (o : Obj K L D F) {r : Ref} (hr : N r) (period : Int) :
    AgOut N obs (hitObj cfg h g c o r period) (hitObj cfg h' g c o r period) := by
  unfold hitObj
  have := condAdd_same ho hh cfg.pastLen o.age o.past r
  generalize condAdd cfg.pastLen o.age h o.past r = a at this
  generalize condAdd cfg.pastLen o.age h' o.past r = b at this
  cases this with
  | none => exact ⟨h', hh, rfl⟩
  | @some a b hab =>
    obtain ⟨a1, a2⟩ := a
    obtain ⟨b1, b2⟩ := b
    simp only at hab
    obtain ⟨h1, rfl⟩ := hab
    simp only
    rw [(h1 r).2.2 hr]
    split
    · exact ⟨b1, h1, rfl⟩
    · exact ⟨b1, h1, rfl⟩

theorem mergeObj_same (ho : Ageless obs) (cfg : Cfg K L D F X) {h h' : Ref → Det K L X} (hh : AgreeOn N obs h h')
    (o c : Obj K L D F) : AgreeOn N obs (mergeObj cfg h o c).1 (mergeObj cfg h' o c).1 ∧
    (mergeObj cfg h' o c).2 = (mergeObj cfg h o c).2 := by
  unfold mergeObj
  obtain ⟨h1, h2⟩ := condAddAll_same ho cfg.pastLen o.age c.past hh o.past
  refine ⟨h1, ?_⟩
  simp only [h2]

theorem createObj_same [LinearOrder K] (ho : Ageless obs) (cfg : Cfg K L D F X) {w v : World K L D F X} (h : Ag N obs w v)
    {r : Ref} (hr : N r) (period : Int) (ct : Option (CoordTrans K)) :
    Ag N obs (createObj cfg w r period ct) (createObj cfg v r period ct) := by
  obtain ⟨h', hh, rfl⟩ := h
  refine ⟨setAge h' r 0, setAge_same ho hh r 0, ?_⟩
  unfold createObj
  simp only [(hh r).2.2 hr]

theorem foldl_create_same [LinearOrder K] (ho : Ageless obs) (cfg : Cfg K L D F X) (period : Int)
    (ct : Option (CoordTrans K)) (l : List Ref) (hl : ∀ r ∈ l, N r) : ∀ {w v : World K L D F X}, Ag N obs w v →
    Ag N obs (l.foldl (fun w r => createObj cfg w r period ct) w) (l.foldl (fun w r => createObj cfg w r period ct) v) := by
  induction l with
  | nil => exact fun h => h
  | cons r l ih =>
    intro w v h
    exact ih (fun r hr => hl r (List.mem_cons_of_mem _ hr)) (createObj_same ho cfg h (hl r List.mem_cons_self) period ct)

theorem setMins_same [LinearOrder D] (thr : D) (M : Mat D) (ks : List Nat) (h' : Ref → Det K L X) :
    ∀ (j : Nat) (w : World K L D F X), setMins thr M j ks { w with heap := h' } = { setMins thr M j ks w with heap := h' } ∧
      (setMins thr M j ks w).heap = w.heap := by
  induction ks with
  | nil => exact fun _ _ => ⟨rfl, rfl⟩
  | cons k ks ih =>
    intro j w
    unfold setMins
    have e : World.find { w with heap := h' } k = w.find k := rfl
    simp only [e]
    cases w.find k with
    | none => exact ih (j + 1) w
    | some o => exact ih (j + 1) (w.put { o with curMin := if M.colMin j < thr then some (M.colMin j) else none })

theorem view_same {h h' : Ref → Det K L X} (hh : AgreeOn N obs h h') (o : Obj K L D F) :
    SameView obs (o.view h) (o.view h') := by
  refine ⟨rfl, ⟨(hh _).2.1, (hh _).1⟩, ?_⟩
  unfold Obj.view
  simp only [List.forall₂_map_left_iff, List.forall₂_map_right_iff]
  exact List.forall₂_same.mpr fun r _ => ⟨(hh r).2.1, (hh r).1⟩

theorem scalarDistances_congr [Top D] [DecidableEq L] {C O : Type} {labC labC' : C → L} {labO : O → L}
    {f g : C → O → Option (Option D)} {objects : List O} {cands : List C} (hl : ∀ c ∈ cands, labC' c = labC c)
    (hf : ∀ c ∈ cands, ∀ o, g c o = f c o) :
    scalarDistances labC' labO g objects cands = scalarDistances labC labO f objects cands := by
  unfold scalarDistances
  have h1 : (cands.any fun c => objects.any fun o => ((if labC' c = labO o then g c o else some (some ⊤)) : Option (Option D)).isNone) =
      cands.any fun c => objects.any fun o => ((if labC c = labO o then f c o else some (some ⊤)) : Option (Option D)).isNone := by
    rw [Bool.eq_iff_iff]
    simp only [List.any_eq_true]
    constructor
    · rintro ⟨c, hc, o, hO, h⟩
      refine ⟨c, hc, o, hO, ?_⟩
      rwa [hl c hc, hf c hc] at h
    · rintro ⟨c, hc, o, hO, h⟩
      refine ⟨c, hc, o, hO, ?_⟩
      rwa [hl c hc, hf c hc]
  simp only [h1]
  split
  · rfl
  · congr 1
    congr 1
    funext i j
    cases hi : cands[i]? with
    | none => rfl
    | some c =>
      cases objects[j]? with
      | none => rfl
      | some o =>
        have hc : c ∈ cands := List.mem_of_getElem? hi
        simp only [hl c hc, hf c hc]

theorem vectorizedDistances_congr [Top D] {C O : Type} {strC strC' : C → String} {strO : O → String}
    {ptsC ptsC' : C → List K} {ptsO : O → List K} {f : List (List K) → List (List K) → Option (Mat (Option D))}
    {objects : List O} {cands : List C} (hs : ∀ c ∈ cands, strC' c = strC c) (hp : ∀ c ∈ cands, ptsC' c = ptsC c) :
    vectorizedDistances strC' strO ptsC' ptsO f objects cands = vectorizedDistances strC strO ptsC ptsO f objects cands := by
  have hc : ∀ s : String, (cands.filter fun c => strC' c = s).map ptsC' = (cands.filter fun c => strC c = s).map ptsC := by
    intro s
    have : (cands.filter fun c => strC' c = s) = cands.filter fun c => strC c = s :=
      List.filter_congr fun c h => by rw [hs c h]
    rw [this]
    exact List.map_congr_left fun c h => hp c (List.mem_filter.mp h).1
  unfold vectorizedDistances
  simp only [hc]
  have h1 : (cands.any fun c => objects.any fun o => decide (strC' c = strO o) &&
        (f ((cands.filter fun c' => strC c' = strC' c).map ptsC) ((objects.filter fun o => strO o = strC' c).map ptsO)).isNone) =
      cands.any fun c => objects.any fun o => decide (strC c = strO o) &&
        (f ((cands.filter fun c' => strC c' = strC c).map ptsC) ((objects.filter fun o => strO o = strC c).map ptsO)).isNone := by
    rw [Bool.eq_iff_iff]
    simp only [List.any_eq_true]
    constructor
    · rintro ⟨c, hc, o, hO, h⟩
      exact ⟨c, hc, o, hO, by rwa [hs c hc] at h⟩
    · rintro ⟨c, hc, o, hO, h⟩
      exact ⟨c, hc, o, hO, by rwa [hs c hc]⟩
  rw [h1]
  split
  · rfl
  · congr 1
    congr 1
    funext i j
    cases hi : cands[i]? with
    | none => rfl
    | some c =>
      cases objects[j]? with
      | none => rfl
      | some o =>
        have hm : c ∈ cands := List.mem_of_getElem? hi
        have h2 : (cands.take i).countP (fun c' => strC' c' = strC c) = (cands.take i).countP (fun c' => strC c' = strC c) :=
          List.countP_congr fun c' h => by rw [hs c' (List.mem_of_mem_take h)]
        simp only [hs c hm, h2]

section
variable [LinearOrder K] [Zero K] [LinearOrder D] [OrderTop D] [Zero D] [DecidableEq L] {cfg : Cfg K L D F X}

theorem detDistances_same (hc : LooksAt obs cfg) {h h' : Ref → Det K L X} (hh : AgreeOn N obs h h')
    (objects : List (Obj K L D F)) {dets : List Ref} (hd : ∀ r ∈ dets, N r) :
    detDistances cfg h' objects dets = detDistances cfg h objects dets := by
  have hr : ∀ r ∈ dets, h' r = h r := fun r hr => (hh r).2.2 (hd r hr)
  unfold detDistances
  cases e : cfg.dist with
  | scalar f =>
    exact scalarDistances_congr (fun r hm => by rw [hr r hm])
      fun r hm o => by rw [hr r hm]; exact hc.dist f e _ _ _ (view_same hh o)
  | vectorized str f =>
    exact vectorizedDistances_congr (fun r hm => by rw [hr r hm]) fun r hm => by rw [hr r hm]

theorem reidDistances_same (hc : LooksAt obs cfg) {f} (hf : cfg.reid = some f) {h h' : Ref → Det K L X}
    (hh : AgreeOn N obs h h') (objects cands : List (Obj K L D F)) :
    reidDistances f h' objects cands = reidDistances f h objects cands :=
  scalarDistances_congr (fun _ _ => rfl) fun c _ o => hc.reid f hf _ _ _ _ (view_same hh c) (view_same hh o)

/-- results that differ in the memory only -/
def AgRes {α : Type} (N : Ref → Prop) (obs : Det K L X → Y) (a b : World K L D F X × Except Err α) : Prop :=
  Ag N obs a.1 b.1 ∧ b.2 = a.2

theorem hitLoop_same (ho : Ageless obs) (thr : D) (period : Int) (M : Mat D) {dets : List Ref} (hd : ∀ r ∈ dets, N r)
    (keys : List Nat) (ps : List (Nat × Nat)) : ∀ {w v : World K L D F X} (_ : Ag N obs w v) (out : StageOut Ref),
      AgRes N obs (hitLoop cfg thr period M dets keys ps w out) (hitLoop cfg thr period M dets keys ps v out) := by
  induction ps with
  | nil => exact fun h out => ⟨h, rfl⟩
  | cons p ps ih =>
    obtain ⟨i, j⟩ := p
    intro w v h out
    unfold hitLoop
    cases e1 : dets[i]? with
    | none => exact ih h out
    | some r =>
      cases e2 : keys[j]? with
      | none => exact ih h out
      | some k =>
        simp only
        split
        · obtain ⟨h', hh, rfl⟩ := h
          have e : World.find { w with heap := h' } k = w.find k := rfl
          rw [e]
          cases w.find k with
          | none => exact ih ⟨h', hh, rfl⟩ out
          | some o =>
            simp only
            obtain ⟨h1, hh1, e3⟩ := hitObj_same ho cfg hh w.gcount w.count o (hd r (List.mem_of_getElem? e1)) period
            rw [e3]
            cases e4 : (hitObj cfg w.heap w.gcount w.count o r period).err with
            | some e => exact ⟨⟨h1, hh1, rfl⟩, rfl⟩
            | none => exact ih ⟨h1, hh1, rfl⟩ _
        · exact ih h _

theorem mergeLoop_same (ho : Ageless obs) (thr : D) (M : Mat D) (cands keys : List Nat) (ps : List (Nat × Nat)) :
    ∀ {w v : World K L D F X} (_ : Ag N obs w v) (out : StageOut Nat),
      AgRes N obs (mergeLoop cfg thr M cands keys ps w out) (mergeLoop cfg thr M cands keys ps v out) := by
  induction ps with
  | nil => exact fun h out => ⟨h, rfl⟩
  | cons p ps ih =>
    obtain ⟨i, j⟩ := p
    intro w v h out
    unfold mergeLoop
    cases e1 : cands[i]? with
    | none => exact ih h out
    | some c =>
      cases e2 : keys[j]? with
      | none => exact ih h out
      | some k =>
        simp only
        split
        · obtain ⟨h', hh, rfl⟩ := h
          have e : ∀ k, World.find { w with heap := h' } k = w.find k := fun _ => rfl
          rw [e, e]
          cases w.find c with
          | none => exact ih ⟨h', hh, rfl⟩ out
          | some oc =>
            cases w.find k with
            | none => exact ih ⟨h', hh, rfl⟩ out
            | some o =>
              simp only
              obtain ⟨hh1, e3⟩ := mergeObj_same ho cfg hh o oc
              rw [e3]
              cases e4 : (mergeObj cfg w.heap o oc).2.2 with
              | some e => exact ⟨⟨_, hh1, rfl⟩, rfl⟩
              | none => exact ih ⟨_, hh1, rfl⟩ _
        · exact ih h _

theorem setMins_ag {w v : World K L D F X} (h : Ag N obs w v) (b : Bool) (thr : D) (M : Mat D) (ks : List Nat) :
    Ag N obs (if b then setMins thr M 0 ks w else w) (if b then setMins thr M 0 ks v else v) := by
  obtain ⟨h', hh, rfl⟩ := h
  cases b with
  | false => exact ⟨h', hh, rfl⟩
  | true =>
    obtain ⟨e1, e2⟩ := setMins_same thr M ks h' 0 w
    exact ⟨h', by simpa [e2] using hh, by simpa using e1⟩

theorem stageDet_same (hc : LooksAt obs cfg) (ho : Ageless obs) (period : Int) {w v : World K L D F X} (h : Ag N obs w v)
    (keys : List Nat) {dets : List Ref} (hd : ∀ r ∈ dets, N r) :
    AgRes N obs (stageDet cfg period w keys dets) (stageDet cfg period v keys dets) := by
  unfold stageDet
  split
  · exact ⟨h, rfl⟩
  · have e : detDistances cfg v.heap (v.objects keys) dets = detDistances cfg w.heap (w.objects keys) dets := by
      obtain ⟨h', hh, rfl⟩ := h
      exact detDistances_same hc hh _ hd
    rw [e]
    cases detDistances cfg w.heap (w.objects keys) dets with
    | none => exact ⟨h, rfl⟩
    | some M =>
      simp only
      split
      · exact ⟨h, rfl⟩
      · have h1 := setMins_ag h (M.map (fun x => x.getD ⊤)).anyNonzero cfg.thr (M.map (fun x => x.getD ⊤)) keys
        cases matchDetsAndObjs cfg.thr cfg.fill (M.map (fun x => x.getD ⊤)) with
        | none => exact ⟨h1, rfl⟩
        | some pairs =>
          simp only
          split
          · exact hitLoop_same ho _ _ _ hd _ _ h1 _
          · exact ⟨h1, rfl⟩

theorem reidStage_same (hc : LooksAt obs cfg) (ho : Ageless obs) {w v : World K L D F X} (h : Ag N obs w v)
    (keys cands : List Nat) : AgRes N obs (reidStage cfg w keys cands) (reidStage cfg v keys cands) := by
  unfold reidStage
  cases er : cfg.reid with
  | none => exact ⟨h, rfl⟩
  | some f =>
    simp only
    unfold stageReid
    split
    · exact ⟨h, rfl⟩
    · have e : reidDistances f v.heap (v.objects keys) (v.objects cands) =
          reidDistances f w.heap (w.objects keys) (w.objects cands) := by
        obtain ⟨h', hh, rfl⟩ := h
        exact reidDistances_same hc er hh _ _
      rw [e]
      cases reidDistances f w.heap (w.objects keys) (w.objects cands) with
      | none => exact ⟨h, rfl⟩
      | some M =>
        simp only
        split
        · exact ⟨h, rfl⟩
        · have h1 := setMins_ag h (M.map (fun x => x.getD ⊤)).anyNonzero cfg.reidThr (M.map (fun x => x.getD ⊤)) keys
          cases matchDetsAndObjs cfg.reidThr cfg.reidFill (M.map (fun x => x.getD ⊤)) with
          | none => exact ⟨h1, rfl⟩
          | some pairs =>
            simp only
            split
            · exact mergeLoop_same ho _ _ _ _ _ h1 _
            · exact ⟨h1, rfl⟩

theorem updateCore_same (hc : LooksAt obs cfg) (ho : Ageless obs) {w v : World K L D F X} (h : Ag N obs w v)
    {dets : List Ref} (hd : ∀ r ∈ dets, N r) (period : Int) (ct : Option (CoordTrans K)) :
    AgRes N obs (updateCore cfg w dets period ct) (updateCore cfg v dets period ct) := by
  have h0 : Ag N obs (advance cfg ct w) (advance cfg ct v) := by
    obtain ⟨h', hh, rfl⟩ := h
    exact ⟨h', hh, rfl⟩
  have ek : ∀ {a b : World K L D F X}, Ag N obs a b → ∀ ks p, b.keysWhere ks p = a.keysWhere ks p := by
    rintro a _ ⟨h', _, rfl⟩ ks p
    rfl
  have eo : v.objs = w.objs := by
    obtain ⟨h', hh, rfl⟩ := h
    rfl
  unfold updateCore
  simp only [eo, ek h0]
  have h1 := stageDet_same hc ho period h0 ((advance cfg ct w).keysWhere (aliveKeys cfg w.objs) fun o => !o.isInit) hd
  cases e1 : stageDet cfg period (advance cfg ct w)
    ((advance cfg ct w).keysWhere (aliveKeys cfg w.objs) fun o => !o.isInit) dets with
  | mk w1 r1 =>
  cases e1' : stageDet cfg period (advance cfg ct v)
    ((advance cfg ct w).keysWhere (aliveKeys cfg w.objs) fun o => !o.isInit) dets with
  | mk v1 s1 =>
  rw [e1, e1'] at h1
  obtain ⟨g1, rfl⟩ := h1
  simp only at g1
  cases s1 with
  | error e => exact ⟨g1, rfl⟩
  | ok out1 =>
    simp only [ek g1]
    have hd1 : ∀ r ∈ out1.unmatchedC, N r := fun r hr => hd r ((stageDet_out_sub _ _ _ _ _ e1).1 r hr)
    have h2 := stageDet_same hc ho period g1 (w1.keysWhere (aliveKeys cfg w.objs) fun o => o.isInit) hd1
    cases e2 : stageDet cfg period w1 (w1.keysWhere (aliveKeys cfg w.objs) fun o => o.isInit) out1.unmatchedC with
    | mk w2 r2 =>
    cases e2' : stageDet cfg period v1 (w1.keysWhere (aliveKeys cfg w.objs) fun o => o.isInit) out1.unmatchedC with
    | mk v2 s2 =>
    rw [e2, e2'] at h2
    obtain ⟨g2, rfl⟩ := h2
    simp only at g2
    cases s2 with
    | error e => exact ⟨g2, rfl⟩
    | ok out2 =>
      simp only
      have hd2 : ∀ r ∈ out2.unmatchedC, N r := fun r hr => hd1 r ((stageDet_out_sub _ _ _ _ _ e2).1 r hr)
      have h3 := reidStage_same hc ho g2 (out1.unmatchedO ++ deadKeys cfg w.objs) out2.matchedO
      cases e3 : reidStage cfg w2 (out1.unmatchedO ++ deadKeys cfg w.objs) out2.matchedO with
      | mk w3 r3 =>
      cases e3' : reidStage cfg v2 (out1.unmatchedO ++ deadKeys cfg w.objs) out2.matchedO with
      | mk v3 s3 =>
      rw [e3, e3'] at h3
      obtain ⟨g3, rfl⟩ := h3
      simp only at g3
      cases s3 with
      | error e => exact ⟨g3, rfl⟩
      | ok out3 =>
        have g4 := foldl_create_same ho cfg period ct out2.unmatchedC hd2 g3
        refine ⟨g4, ?_⟩
        obtain ⟨h', _, e⟩ := g4
        simp only [e]
        rfl

theorem transform_same (c : CoordTrans K) (l : List Ref) (hl : ∀ r ∈ l, N r) : ∀ {h h' : Ref → Det K L X},
    AgreeOn N obs h h' → AgreeOn N obs (l.foldl (transformDet c) h) (l.foldl (transformDet c) h') := by
  induction l with
  | nil => exact fun hh => hh
  | cons r l ih =>
    intro h h' hh
    refine ih (fun r hr => hl r (List.mem_cons_of_mem _ hr)) ?_
    intro r'
    unfold transformDet
    by_cases e : r' = r
    · simp only [e, if_true]
      rw [(hh r).2.2 (hl r List.mem_cons_self)]
      exact ⟨rfl, rfl, fun _ => rfl⟩
    · simp only [if_neg e]
      exact hh r'

theorem update_same (hc : LooksAt obs cfg) (ho : Ageless obs) {w v : World K L D F X} (h : Ag N obs w v)
    {dets : Option (List Ref)} (hd : ∀ r ∈ dets.getD [], N r) (period : Int) (ct : Option (CoordTrans K)) :
    AgRes N obs (update cfg w dets period ct) (update cfg v dets period ct) := by
  unfold update
  cases ct with
  | none =>
    cases dets with
    | none => exact updateCore_same hc ho h (dets := []) (by simp) period none
    | some l => exact updateCore_same hc ho h hd period none
  | some c =>
    cases dets with
    | none => exact ⟨h, rfl⟩
    | some l =>
      obtain ⟨h', hh, rfl⟩ := h
      exact updateCore_same hc ho ⟨_, transform_same c l hd hh, rfl⟩ hd period (some c)

end

end Norfair.Edits
