import Verif.Spec.Unseen
import Verif.Lemmas.Edits
import Verif.Lemmas.Points
import Verif.Lemmas.PointsInv

/-! Lemmas for C112: `update` on two memories whose detections differ in points that are not over the detection
threshold. -/

set_option linter.unusedSectionVars false

namespace Norfair.Unseen

open Norfair Norfair.Spec Norfair.Edits

variable {K L D F X : Type} {N : Ref → Prop} {dim : Nat} {Ok : F → Prop}

section
variable [LinearOrder K] {thr : K}

theorem seen_of_scores {d e : Det K L X} (h : e.scores = d.scores) : Seen thr e = Seen thr d := by
  funext i
  unfold Seen
  rw [h]

/-- the two memories, with proper detections in `N` -/
def Alike (thr : K) (dim : Nat) (N : Ref → Prop) (h h' : Ref → Det K L X) : Prop :=
  ∀ r, SeenAlike thr (h r) (h' r) ∧ (N r → Proper dim (h r))

theorem seenAlike_age {d e : Det K L X} (h : SeenAlike thr d e) (a : Option Int) :
    SeenAlike thr { d with age := a } { e with age := a } :=
  { h with age := rfl }

theorem proper_age {d : Det K L X} (h : Proper dim d) (a : Option Int) : Proper dim { d with age := a } := { h with }

theorem setAge_alike {h h' : Ref → Det K L X} (hh : Alike thr dim N h h') (r : Ref) (a : Int) :
    Alike thr dim N (setAge h r a) (setAge h' r a) := by
  intro r'
  unfold setAge
  by_cases e : r' = r
  · simp only [e, if_true]
    exact ⟨seenAlike_age (hh r).1 _, fun hN => proper_age ((hh r).2 hN) _⟩
  · simp only [if_neg e]
    exact hh r'

theorem condAdd_alike {h h' : Ref → Det K L X} (hh : Alike thr dim N h h') (n : Nat) (age : Int)
    (past : List Ref) (r : Ref) :
    Option.Rel (fun a b => Alike thr dim N a.1 b.1 ∧ b.2 = a.2) (condAdd n age h past r) (condAdd n age h' past r) := by
  unfold condAdd
  split
  · exact .some ⟨hh, rfl⟩
  split
  · exact .some ⟨setAge_alike hh r age, rfl⟩
  cases past with
  | nil => exact .some ⟨hh, rfl⟩
  | cons p rest =>
    simp only [(hh p).1.age]
    cases (h p).age with
    | none => exact .none
    | some a =>
      simp only
      split
      · exact .some ⟨setAge_alike hh r age, rfl⟩
      · exact .some ⟨hh, rfl⟩

theorem condAddAll_alike (n : Nat) (age : Int) (rs : List Ref) :
    ∀ {h h' : Ref → Det K L X} (_ : Alike thr dim N h h') (past : List Ref),
      Alike thr dim N (condAddAll n age h past rs).1 (condAddAll n age h' past rs).1 ∧
      (condAddAll n age h' past rs).2 = (condAddAll n age h past rs).2 := by
  induction rs with
  | nil => exact fun hh past => ⟨hh, rfl⟩
  | cons r rs ih =>
    intro h h' hh past
    unfold condAddAll
    have := condAdd_alike hh n age past r
    generalize condAdd n age h past r = a at this
    generalize condAdd n age h' past r = b at this
    cases this with
    | none => exact ⟨hh, rfl⟩
    | @some a b hab =>
      obtain ⟨a1, a2⟩ := a
      obtain ⟨b1, b2⟩ := b
      simp only at hab
      obtain ⟨h1, rfl⟩ := hab
      exact ih h1 b2

/-- what holds of the objects meanwhile -/
structure Good (dim : Nat) (Ok : F → Prop) (o : Obj K L D F) : Prop where
  once : ∀ b ∈ o.once, b = true
  dim : o.dimPoints = dim
  ok : Ok o.filter

/-- two states that differ in the memory only -/
def Al (thr : K) (dim : Nat) (Ok : F → Prop) (N : Ref → Prop) (w v : World K L D F X) : Prop :=
  (∀ o ∈ w.objs, Good dim Ok o) ∧ ∃ h', Alike thr dim N w.heap h' ∧ v = { w with heap := h' }

/-- results of methods of an object that differ in the memory only -/
def AlOut (thr : K) (dim : Nat) (Ok : F → Prop) (N : Ref → Prop) (a b : ObjOut K L D F X) : Prop :=
  Good dim Ok a.obj ∧ ∃ h', Alike thr dim N a.heap h' ∧ b = { a with heap := h' }

end

theorem maskAssign_false {m : List Bool} (h : ∀ b ∈ m, b = false) (a z : List K) : maskAssign m a z = a := by
  induction m generalizing a z with
  | nil => simp [maskAssign]
  | cons x m ih =>
    cases a with
    | nil => simp [maskAssign]
    | cons y a =>
      cases z with
      | nil => simp [maskAssign]
      | cons u z =>
        simp only [maskAssign, h x List.mem_cons_self, ih (fun b hb => h b (List.mem_cons_of_mem _ hb))]
        simp

theorem repeatMask_all {m : List Bool} (h : ∀ b ∈ m, b = true) (dim : Nat) : ∀ b ∈ repeatMask dim m, b = true := by
  intro b hb
  unfold repeatMask at hb
  rw [List.mem_flatten] at hb
  obtain ⟨l, hl, hb⟩ := hb
  obtain ⟨x, hx, rfl⟩ := List.mem_map.mp hl
  rw [List.eq_of_mem_replicate hb]
  exact h x hx

theorem repeatMask_nil (m : List Bool) : repeatMask 0 m = [] := by
  unfold repeatMask
  simp

theorem repeatMask_true {dim : Nat} {m : List Bool} {k : Nat} (h : (repeatMask dim m)[k]? = some true) :
    0 < dim ∧ m[k / dim]? = some true := by
  induction m generalizing k with
  | nil => simp [repeatMask] at h
  | cons x m ih =>
    have e : repeatMask dim (x :: m) = List.replicate dim x ++ repeatMask dim m := rfl
    rw [e] at h
    by_cases hk : k < dim
    · rw [List.getElem?_append_left (by simpa using hk), List.getElem?_replicate, if_pos hk] at h
      cases h
      exact ⟨by omega, by rw [Nat.div_eq_of_lt hk]; rfl⟩
    · rw [List.getElem?_append_right (by simpa using hk), List.length_replicate] at h
      obtain ⟨h1, h2⟩ := ih h
      refine ⟨h1, ?_⟩
      have e : k / dim = (k - dim) / dim + 1 := by
        conv_lhs => rw [show k = (k - dim) + dim by omega]
        rw [Nat.add_div_right _ h1]
      rw [e]
      exact h2

section
variable [LinearOrder K] [Zero K]

/-- once all points have been seen, `hit` sets nothing but the counters and the updated filter -/
theorem fix_seen {fo : FilterOps K F} (mask : List Bool) (z : List K) {o : Obj K L D F} (h : ∀ b ∈ o.once, b = true) :
    firstDetectionFix fo mask z o = { o with
      filter := fo.setX o.filter (fo.getX o.filter), once := List.zipWith (· || ·) o.once mask } := by
  unfold firstDetectionFix
  simp only
  rw [maskAssign_false, maskAssign_false, List.take_append_drop]
  · intro b hb
    obtain ⟨x, hx, rfl⟩ := List.mem_map.mp hb
    rw [repeatMask_all h _ x hx]; rfl
  · intro b hb
    obtain ⟨i, hi, rfl⟩ := List.mem_iff_getElem.mp hb
    rw [List.getElem_zipWith]
    have := repeatMask_all h o.dimPoints _ (List.getElem_mem (l := repeatMask o.dimPoints o.once) (n := i) (by
      rw [List.length_zipWith] at hi; omega))
    rw [this]
    simp

theorem overThreshold_seen {thr : K} {n : Nat} {d : Det K L X} {i : Nat}
    (h : (overThreshold thr n d)[i]? = some true) : Seen thr d i := by
  unfold overThreshold at h
  intro s hs
  rw [hs] at h
  simp only [List.getElem?_map, Option.map_eq_some_iff] at h
  obtain ⟨x, hx, hlt⟩ := h
  exact ⟨x, hx, of_decide_eq_true hlt⟩

theorem hitSensors_alike {cfg : Cfg K L D F X} (hL : FilterLaws cfg.flt Ok) (hB : BlindFilter cfg.flt Ok)
    {d e : Det K L X} (hd : Proper dim d) (h : SeenAlike cfg.detThr d e) (period : Int) {o : Obj K L D F}
    (ho : Good dim Ok o) :
    hitSensors cfg e period o = hitSensors cfg d period o ∧ Good dim Ok (hitSensors cfg d period o).1 := by
  have hm : overThreshold cfg.detThr o.numPoints e = overThreshold cfg.detThr o.numPoints d := by
    unfold overThreshold; rw [h.scores]
  have hml : (repeatMask o.dimPoints (overThreshold cfg.detThr o.numPoints d)).length =
      (overThreshold cfg.detThr o.numPoints d).length * o.dimPoints := by
    rw [repeatMask_length, Nat.mul_comm]
  unfold hitSensors
  simp only
  rw [hm, h.scores, h.absPoints.len]
  generalize hmask : overThreshold cfg.detThr o.numPoints d = mask
  rw [hmask] at hml
  split
  · exact ⟨rfl, ho⟩
  split
  · exact ⟨rfl, ⟨ho.once, ho.dim, ho.ok⟩⟩
  rename_i hlen
  simp only [ne_eq, not_or, not_not] at hlen
  have hu := hL.update o.filter d.absPoints.data (repeatMask o.dimPoints mask) ho.ok hlen.2 (by rw [hml, hlen.1])
  have eu : cfg.flt.update o.filter e.absPoints.data (repeatMask o.dimPoints mask) =
      cfg.flt.update o.filter d.absPoints.data (repeatMask o.dimPoints mask) := by
    refine hB _ _ _ _ ho.ok (by rw [h.absPoints.len, hlen.2]) hlen.2 (by rw [hml, hlen.1]) ?_
    intro k hk
    obtain ⟨h0, hk⟩ := repeatMask_true hk
    rw [← hmask] at hk
    have hs := overThreshold_seen hk
    rw [ho.dim] at h0 hs
    have := h.absPoints.at' _ hs (k % dim) (by rw [hd.adim]; exact Nat.mod_lt _ h0)
    rw [hd.adim, Nat.div_add_mod' k dim] at this
    exact this
  rw [eu]
  split
  · exact ⟨rfl, ⟨ho.once, ho.dim, hu.1⟩⟩
  · have h1 := fun q z => fix_seen (fo := cfg.flt) mask z (o := { o with
      pointHits := q
      filter := cfg.flt.update o.filter d.absPoints.data (repeatMask o.dimPoints mask) }) ho.once
    rw [h1, h1]
    refine ⟨rfl, ⟨?_, ho.dim, ?_⟩⟩
    · intro b hb
      obtain ⟨i, hi, rfl⟩ := List.mem_iff_getElem.mp hb
      simp only [List.getElem_zipWith]
      rw [ho.once _ (List.getElem_mem _)]
      rfl
    · exact (hL.setX _ _ hu.1 (hL.len _ hu.1)).1

theorem hitObj_alike {cfg : Cfg K L D F X} (hL : FilterLaws cfg.flt Ok) (hB : BlindFilter cfg.flt Ok)
    {h h' : Ref → Det K L X} (hh : Alike cfg.detThr dim N h h') (g c : Nat) {o : Obj K L D F} (hgo : Good dim Ok o)
    {r : Ref} (hr : N r) (period : Int) :
    AlOut cfg.detThr dim Ok N (hitObj cfg h g c o r period) (hitObj cfg h' g c o r period) := by
  unfold hitObj
  have := condAdd_alike hh cfg.pastLen o.age o.past r
  generalize condAdd cfg.pastLen o.age h o.past r = a at this
  generalize condAdd cfg.pastLen o.age h' o.past r = b at this
  cases this with
  | none => exact ⟨hgo, h', hh, rfl⟩
  | @some a b hab =>
    obtain ⟨a1, a2⟩ := a
    obtain ⟨b1, b2⟩ := b
    simp only at hab
    obtain ⟨h1, rfl⟩ := hab
    simp only
    split
    · obtain ⟨e, hg⟩ := hitSensors_alike hL hB ((h1 r).2 hr) (h1 r).1 period (o := { o with
        past := b2, lastDet := r, hitCounter := min (o.hitCounter + 2 * period) cfg.hitCounterMax, isInit := false,
        id := some (c + 1), globalId := some (g + 1) }) ⟨hgo.once, hgo.dim, hgo.ok⟩
      rw [e]
      exact ⟨hg, b1, h1, rfl⟩
    · obtain ⟨e, hg⟩ := hitSensors_alike hL hB ((h1 r).2 hr) (h1 r).1 period (o := { o with
        past := b2, lastDet := r, hitCounter := min (o.hitCounter + 2 * period) cfg.hitCounterMax })
        ⟨hgo.once, hgo.dim, hgo.ok⟩
      rw [e]
      exact ⟨hg, b1, h1, rfl⟩

theorem mergeObj_alike {cfg : Cfg K L D F X} {thr : K} {h h' : Ref → Det K L X} (hh : Alike thr dim N h h')
    {o c : Obj K L D F} (ho : Good dim Ok o) (hc : Good dim Ok c) :
    Alike thr dim N (mergeObj cfg h o c).1 (mergeObj cfg h' o c).1 ∧
    (mergeObj cfg h' o c).2 = (mergeObj cfg h o c).2 ∧ Good dim Ok (mergeObj cfg h o c).2.1 := by
  unfold mergeObj
  obtain ⟨h1, h2⟩ := condAddAll_alike cfg.pastLen o.age c.past hh o.past
  refine ⟨h1, ?_, ⟨hc.once, ho.dim, hc.ok⟩⟩
  simp only [h2]

theorem list_ext_agree {p q : Pts K} {P : Nat → Prop} (h : AgreePts P p q) (hl : p.data.length = p.dim * p.n)
    (hP : ∀ i < p.n, P i) : q = p := by
  obtain ⟨n, d, data⟩ := p
  obtain ⟨n', d', data'⟩ := q
  obtain ⟨h1, h2, h3, h4⟩ := h
  simp only at h1 h2 h3 h4 hl hP
  subst h1 h2
  congr 1
  apply List.ext_getElem?
  intro k
  by_cases hk : k < data.length
  · rw [hl] at hk
    have hd : 0 < d' := by
      rcases Nat.eq_zero_or_pos d' with h | h
      · subst h; simp at hk
      · exact h
    have := h4 (k / d') (hP _ ((Nat.div_lt_iff_lt_mul hd).mpr (by rw [Nat.mul_comm]; exact hk))) (k % d') (Nat.mod_lt _ hd)
    rwa [Nat.div_add_mod' k d'] at this
  · rw [List.getElem?_eq_none (by omega), List.getElem?_eq_none (by omega)]

/-- an object is created from a detection of which all points are over the threshold -/
theorem createObj_alike {cfg : Cfg K L D F X} (hL : FilterLaws cfg.flt Ok) {w v : World K L D F X}
    (h : Al cfg.detThr dim Ok N w v) {r : Ref} (hr : N r) (period : Int) (ct : Option (CoordTrans K))
    (hall : AllSeen (createObj cfg w r period ct).objs) :
    Al cfg.detThr dim Ok N (createObj cfg w r period ct) (createObj cfg v r period ct) := by
  obtain ⟨hg, h', hh, rfl⟩ := h
  have hp := (hh r).2 hr
  have hs := (hh r).1
  have hnew := hall _ (by
    unfold createObj
    exact List.mem_append_right _ (List.mem_singleton.mpr rfl))
  have honce : ∀ b ∈ (match (w.heap r).scores with
      | none => List.replicate (w.heap r).absPoints.n true
      | some s => s.map (fun x => decide (cfg.detThr < x))), b = true := by
    intro b hb
    apply hnew b
    unfold Obj.updateCT
    cases ct <;> exact hb
  have hseen : ∀ i < (w.heap r).absPoints.n, Seen cfg.detThr (w.heap r) i := by
    intro i hi s hs
    rw [hs] at honce
    simp only at honce
    have hi' : i < s.length := by rw [hp.scores s hs, ← hp.n]; exact hi
    refine ⟨s[i], List.getElem?_eq_getElem hi', ?_⟩
    exact of_decide_eq_true (honce _ (List.mem_map_of_mem (List.getElem_mem hi')))
  have hpts : (h' r).absPoints = (w.heap r).absPoints :=
    list_ext_agree hs.absPoints (by rw [hp.len, hp.adim, hp.n]) hseen
  refine ⟨?_, setAge h' r 0, setAge_alike hh r 0, ?_⟩
  · intro o ho
    unfold createObj at ho
    rcases List.mem_append.mp ho with ho | ho
    · exact hg o ho
    · rw [List.mem_singleton] at ho
      subst ho
      have hok := (hL.create (w.heap r).absPoints (by rw [hp.len, hp.adim, hp.n])).1
      cases ct <;> exact ⟨honce, hp.adim, hok⟩
  · unfold createObj
    simp only [hpts, hs.scores, hs.label]

theorem createObj_sub (cfg : Cfg K L D F X) (period : Int) (ct : Option (CoordTrans K)) (l : List Ref) :
    ∀ (w : World K L D F X), ∀ o ∈ w.objs, o ∈ (l.foldl (fun w r => createObj cfg w r period ct) w).objs := by
  induction l with
  | nil => exact fun _ _ h => h
  | cons r l ih =>
    intro w o ho
    refine ih _ o ?_
    unfold createObj
    exact List.mem_append_left _ ho

theorem foldl_create_alike {cfg : Cfg K L D F X} (hL : FilterLaws cfg.flt Ok) (period : Int)
    (ct : Option (CoordTrans K)) (l : List Ref) (hl : ∀ r ∈ l, N r) : ∀ {w v : World K L D F X},
    Al cfg.detThr dim Ok N w v →
    AllSeen (l.foldl (fun w r => createObj cfg w r period ct) w).objs →
    Al cfg.detThr dim Ok N (l.foldl (fun w r => createObj cfg w r period ct) w)
      (l.foldl (fun w r => createObj cfg w r period ct) v) := by
  induction l with
  | nil => exact fun h _ => h
  | cons r l ih =>
    intro w v h hall
    refine ih (fun r hr => hl r (List.mem_cons_of_mem _ hr))
      (createObj_alike hL h (hl r List.mem_cons_self) period ct ?_) hall
    intro o ho
    exact hall o (createObj_sub cfg period ct l _ o ho)

theorem view_alike {thr : K} {h h' : Ref → Det K L X} (hh : Alike thr dim N h h') (o : Obj K L D F) :
    AlikeView thr (o.view h) (o.view h') := by
  refine ⟨rfl, (hh _).1, ?_⟩
  unfold Obj.view
  simp only [List.forall₂_map_left_iff, List.forall₂_map_right_iff]
  exact List.forall₂_same.mpr fun r _ => (hh r).1

end

section
variable [LinearOrder K] [Zero K] [LinearOrder D] [OrderTop D] [Zero D] [DecidableEq L] {cfg : Cfg K L D F X}

theorem detDistances_alike (hc : BlindDists dim cfg) {h h' : Ref → Det K L X} (hh : Alike cfg.detThr dim N h h')
    (objects : List (Obj K L D F)) {dets : List Ref} (hd : ∀ r ∈ dets, N r) :
    detDistances cfg h' objects dets = detDistances cfg h objects dets := by
  obtain ⟨f, hf, hf'⟩ := hc.dist
  unfold detDistances
  rw [hf]
  exact scalarDistances_congr (fun r _ => (hh r).1.label)
    fun r hm o => hf' _ _ _ _ ((hh r).2 (hd r hm)) (hh r).1 (view_alike hh o)

theorem reidDistances_alike (hc : BlindDists dim cfg) {f} (hf : cfg.reid = some f) {h h' : Ref → Det K L X}
    (hh : Alike cfg.detThr dim N h h') (objects cands : List (Obj K L D F)) :
    reidDistances f h' objects cands = reidDistances f h objects cands :=
  scalarDistances_congr (fun _ _ => rfl) fun c _ o => hc.reid f hf _ _ _ _ (view_alike hh c) (view_alike hh o)

/-- results that differ in the memory only -/
def AlRes {α : Type} (thr : K) (dim : Nat) (Ok : F → Prop) (N : Ref → Prop) (a b : World K L D F X × Except Err α) :
    Prop :=
  Al thr dim Ok N a.1 b.1 ∧ b.2 = a.2

theorem mem_put {w : World K L D F X} {o q : Obj K L D F} (h : q ∈ (w.put o).objs) : q = o ∨ q ∈ w.objs := by
  unfold World.put at h
  obtain ⟨p, hp, rfl⟩ := List.mem_map.mp h
  split
  · exact .inl rfl
  · exact .inr hp

theorem mem_find {w : World K L D F X} {k : Nat} {o : Obj K L D F} (h : w.find k = some o) : o ∈ w.objs :=
  List.mem_of_find?_eq_some h

theorem hitLoop_alike (hL : FilterLaws cfg.flt Ok) (hB : BlindFilter cfg.flt Ok) (thr : D) (period : Int) (M : Mat D)
    {dets : List Ref} (hd : ∀ r ∈ dets, N r)
    (keys : List Nat) (ps : List (Nat × Nat)) :
    ∀ {w v : World K L D F X} (_ : Al cfg.detThr dim Ok N w v) (out : StageOut Ref),
      AlRes cfg.detThr dim Ok N (hitLoop cfg thr period M dets keys ps w out)
        (hitLoop cfg thr period M dets keys ps v out) := by
  induction ps with
  | nil => exact fun h out => ⟨h, rfl⟩
  | cons p ps ih =>
    obtain ⟨i, j⟩ := p
    intro w v h out
    unfold hitLoop
    cases e1 : dets[i]? with
    | none => exact ih h out
    | some r =>
      cases e2 : keys[j]? with
      | none => exact ih h out
      | some k =>
        simp only
        split
        · obtain ⟨hg, h', hh, rfl⟩ := h
          have e : World.find { w with heap := h' } k = w.find k := rfl
          rw [e]
          cases ef : w.find k with
          | none => exact ih ⟨hg, h', hh, rfl⟩ out
          | some o =>
            simp only
            obtain ⟨hgo, h1, hh1, e3⟩ := hitObj_alike hL hB hh w.gcount w.count (hg o (mem_find ef))
              (hd r (List.mem_of_getElem? e1)) period
            rw [e3]
            have hput : ∀ q : Obj K L D F, Good dim Ok q → ∀ a b c, ∀ x ∈ (({ w with
                heap := a, gcount := b, count := c } : World K L D F X).put q).objs, Good dim Ok x := by
              intro q hq a b c x hx
              rcases mem_put hx with rfl | hx
              · exact hq
              · exact hg x hx
            cases e4 : (hitObj cfg w.heap w.gcount w.count o r period).err with
            | some e => exact ⟨⟨hput _ hgo _ _ _, h1, hh1, rfl⟩, rfl⟩
            | none =>
              exact ih ⟨hput { (hitObj cfg w.heap w.gcount w.count o r period).obj with
                lastDistance := some (M.val i j) } ⟨hgo.once, hgo.dim, hgo.ok⟩ _ _ _, h1, hh1, rfl⟩ _
        · exact ih h _

theorem mergeLoop_alike {dthr : K} (thr : D) (M : Mat D) (cands keys : List Nat) (ps : List (Nat × Nat)) :
    ∀ {w v : World K L D F X} (_ : Al dthr dim Ok N w v) (out : StageOut Nat),
      AlRes dthr dim Ok N (mergeLoop cfg thr M cands keys ps w out) (mergeLoop cfg thr M cands keys ps v out) := by
  induction ps with
  | nil => exact fun h out => ⟨h, rfl⟩
  | cons p ps ih =>
    obtain ⟨i, j⟩ := p
    intro w v h out
    unfold mergeLoop
    cases e1 : cands[i]? with
    | none => exact ih h out
    | some c =>
      cases e2 : keys[j]? with
      | none => exact ih h out
      | some k =>
        simp only
        split
        · obtain ⟨hg, h', hh, rfl⟩ := h
          have e : ∀ k, World.find { w with heap := h' } k = w.find k := fun _ => rfl
          rw [e, e]
          cases ec : w.find c with
          | none => exact ih ⟨hg, h', hh, rfl⟩ out
          | some oc =>
            cases ek : w.find k with
            | none => exact ih ⟨hg, h', hh, rfl⟩ out
            | some o =>
              simp only
              obtain ⟨hh1, e3, hgo⟩ := mergeObj_alike (cfg := cfg) hh (hg o (mem_find ek)) (hg oc (mem_find ec))
              rw [e3]
              have hput : ∀ a, ∀ x ∈ (({ w with heap := a } : World K L D F X).put (mergeObj cfg w.heap o oc).2.1).objs,
                  Good dim Ok x := by
                intro a x hx
                rcases mem_put hx with rfl | hx
                · exact hgo
                · exact hg x hx
              cases e4 : (mergeObj cfg w.heap o oc).2.2 with
              | some e => exact ⟨⟨hput _, _, hh1, rfl⟩, rfl⟩
              | none => exact ih ⟨fun x hx => hput _ x (List.mem_filter.mp hx).1, _, hh1, rfl⟩ _
        · exact ih h _

theorem setMins_good {thr : D} {M : Mat D} (ks : List Nat) : ∀ (j : Nat) (w : World K L D F X),
    (∀ o ∈ w.objs, Good dim Ok o) → ∀ o ∈ (setMins thr M j ks w).objs, Good dim Ok o := by
  induction ks with
  | nil => exact fun _ _ h => h
  | cons k ks ih =>
    intro j w h
    unfold setMins
    cases e : w.find k with
    | none => exact ih (j + 1) w h
    | some o =>
      refine ih (j + 1) _ ?_
      intro x hx
      rcases mem_put hx with rfl | hx
      · have := h o (mem_find e)
        exact ⟨this.once, this.dim, this.ok⟩
      · exact h x hx

theorem setMins_al {dthr : K} {w v : World K L D F X} (h : Al dthr dim Ok N w v) (b : Bool) (thr : D) (M : Mat D)
    (ks : List Nat) :
    Al dthr dim Ok N (if b then setMins thr M 0 ks w else w) (if b then setMins thr M 0 ks v else v) := by
  obtain ⟨hg, h', hh, rfl⟩ := h
  cases b with
  | false => exact ⟨hg, h', hh, rfl⟩
  | true =>
    obtain ⟨e1, e2⟩ := setMins_same thr M ks h' 0 w
    exact ⟨by simpa using setMins_good ks 0 w hg, h', by simpa [e2] using hh, by simpa using e1⟩

theorem stageDet_alike (hL : FilterLaws cfg.flt Ok) (hB : BlindFilter cfg.flt Ok) (hc : BlindDists dim cfg)
    (period : Int) {w v : World K L D F X} (h : Al cfg.detThr dim Ok N w v)
    (keys : List Nat) {dets : List Ref} (hd : ∀ r ∈ dets, N r) :
    AlRes cfg.detThr dim Ok N (stageDet cfg period w keys dets) (stageDet cfg period v keys dets) := by
  unfold stageDet
  split
  · exact ⟨h, rfl⟩
  · have e : detDistances cfg v.heap (v.objects keys) dets = detDistances cfg w.heap (w.objects keys) dets := by
      obtain ⟨_, h', hh, rfl⟩ := h
      exact detDistances_alike hc hh _ hd
    rw [e]
    cases detDistances cfg w.heap (w.objects keys) dets with
    | none => exact ⟨h, rfl⟩
    | some M =>
      simp only
      split
      · exact ⟨h, rfl⟩
      · have h1 := setMins_al h (M.map (fun x => x.getD ⊤)).anyNonzero cfg.thr (M.map (fun x => x.getD ⊤)) keys
        cases matchDetsAndObjs cfg.thr cfg.fill (M.map (fun x => x.getD ⊤)) with
        | none => exact ⟨h1, rfl⟩
        | some pairs =>
          simp only
          split
          · exact hitLoop_alike hL hB _ _ _ hd _ _ h1 _
          · exact ⟨h1, rfl⟩

theorem reidStage_alike (hc : BlindDists dim cfg) {w v : World K L D F X} (h : Al cfg.detThr dim Ok N w v)
    (keys cands : List Nat) :
    AlRes cfg.detThr dim Ok N (reidStage cfg w keys cands) (reidStage cfg v keys cands) := by
  unfold reidStage
  cases er : cfg.reid with
  | none => exact ⟨h, rfl⟩
  | some f =>
    simp only
    unfold stageReid
    split
    · exact ⟨h, rfl⟩
    · have e : reidDistances f v.heap (v.objects keys) (v.objects cands) =
          reidDistances f w.heap (w.objects keys) (w.objects cands) := by
        obtain ⟨_, h', hh, rfl⟩ := h
        exact reidDistances_alike hc er hh _ _
      rw [e]
      cases reidDistances f w.heap (w.objects keys) (w.objects cands) with
      | none => exact ⟨h, rfl⟩
      | some M =>
        simp only
        split
        · exact ⟨h, rfl⟩
        · have h1 := setMins_al h (M.map (fun x => x.getD ⊤)).anyNonzero cfg.reidThr (M.map (fun x => x.getD ⊤)) keys
          cases matchDetsAndObjs cfg.reidThr cfg.reidFill (M.map (fun x => x.getD ⊤)) with
          | none => exact ⟨h1, rfl⟩
          | some pairs =>
            simp only
            split
            · exact mergeLoop_alike _ _ _ _ _ h1 _
            · exact ⟨h1, rfl⟩

theorem updateCore_alike (hL : FilterLaws cfg.flt Ok) (hB : BlindFilter cfg.flt Ok) (hc : BlindDists dim cfg)
    {w v : World K L D F X} (h : Al cfg.detThr dim Ok N w v)
    {dets : List Ref} (hd : ∀ r ∈ dets, N r) (period : Int) (ct : Option (CoordTrans K))
    (hall : AllSeen (updateCore cfg w dets period ct).1.objs) :
    AlRes cfg.detThr dim Ok N (updateCore cfg w dets period ct) (updateCore cfg v dets period ct) := by
  have h0 : Al cfg.detThr dim Ok N (advance cfg ct w) (advance cfg ct v) := by
    obtain ⟨hg, h', hh, rfl⟩ := h
    refine ⟨?_, h', hh, rfl⟩
    intro o ho
    obtain ⟨p, hp, rfl⟩ := List.mem_map.mp ho
    have := hg p ((survivors_sublist cfg w.objs).subset hp)
    have hok := (hL.predict _ this.ok).1
    cases ct <;> exact ⟨this.once, this.dim, hok⟩
  have ek : ∀ {a b : World K L D F X}, Al cfg.detThr dim Ok N a b → ∀ ks p, b.keysWhere ks p = a.keysWhere ks p := by
    rintro a _ ⟨_, h', _, rfl⟩ ks p
    rfl
  have eo : v.objs = w.objs := by
    obtain ⟨_, h', hh, rfl⟩ := h
    rfl
  unfold updateCore at hall ⊢
  simp only [eo, ek h0] at hall ⊢
  have h1 := stageDet_alike hL hB hc period h0
    ((advance cfg ct w).keysWhere (aliveKeys cfg w.objs) fun o => !o.isInit) hd
  cases e1 : stageDet cfg period (advance cfg ct w)
    ((advance cfg ct w).keysWhere (aliveKeys cfg w.objs) fun o => !o.isInit) dets with
  | mk w1 r1 =>
  cases e1' : stageDet cfg period (advance cfg ct v)
    ((advance cfg ct w).keysWhere (aliveKeys cfg w.objs) fun o => !o.isInit) dets with
  | mk v1 s1 =>
  rw [e1] at hall
  rw [e1, e1'] at h1
  obtain ⟨g1, rfl⟩ := h1
  simp only at g1
  cases s1 with
  | error e => exact ⟨g1, rfl⟩
  | ok out1 =>
    simp only [ek g1] at hall ⊢
    have hd1 : ∀ r ∈ out1.unmatchedC, N r := fun r hr => hd r ((stageDet_out_sub _ _ _ _ _ e1).1 r hr)
    have h2 := stageDet_alike hL hB hc period g1 (w1.keysWhere (aliveKeys cfg w.objs) fun o => o.isInit) hd1
    cases e2 : stageDet cfg period w1 (w1.keysWhere (aliveKeys cfg w.objs) fun o => o.isInit) out1.unmatchedC with
    | mk w2 r2 =>
    cases e2' : stageDet cfg period v1 (w1.keysWhere (aliveKeys cfg w.objs) fun o => o.isInit) out1.unmatchedC with
    | mk v2 s2 =>
    rw [e2] at hall
    rw [e2, e2'] at h2
    obtain ⟨g2, rfl⟩ := h2
    simp only at g2
    cases s2 with
    | error e => exact ⟨g2, rfl⟩
    | ok out2 =>
      simp only at hall ⊢
      have hd2 : ∀ r ∈ out2.unmatchedC, N r := fun r hr => hd1 r ((stageDet_out_sub _ _ _ _ _ e2).1 r hr)
      have h3 := reidStage_alike hc g2 (out1.unmatchedO ++ deadKeys cfg w.objs) out2.matchedO
      cases e3 : reidStage cfg w2 (out1.unmatchedO ++ deadKeys cfg w.objs) out2.matchedO with
      | mk w3 r3 =>
      cases e3' : reidStage cfg v2 (out1.unmatchedO ++ deadKeys cfg w.objs) out2.matchedO with
      | mk v3 s3 =>
      rw [e3] at hall
      rw [e3, e3'] at h3
      obtain ⟨g3, rfl⟩ := h3
      simp only at g3
      cases s3 with
      | error e => exact ⟨g3, rfl⟩
      | ok out3 =>
        have g4 := foldl_create_alike hL period ct out2.unmatchedC hd2 g3 hall
        refine ⟨g4, ?_⟩
        obtain ⟨_, h', _, e⟩ := g4
        simp only [e]
        rfl

theorem transform_alike {thr : K} {c : CoordTrans K} (hp : Pointwise dim c.relToAbs) (l : List Ref)
    (hl : ∀ r ∈ l, N r) : ∀ {h h' : Ref → Det K L X},
    Alike thr dim N h h' → Alike thr dim N (l.foldl (transformDet c) h) (l.foldl (transformDet c) h') := by
  induction l with
  | nil => exact fun hh => hh
  | cons r l ih =>
    intro h h' hh
    refine ih (fun r hr => hl r (List.mem_cons_of_mem _ hr)) ?_
    intro r'
    unfold transformDet
    by_cases e : r' = r
    · simp only [e, if_true]
      have hs := (hh r).1
      have hq := (hh r).2 (hl r List.mem_cons_self)
      have hlen : (h r).absPoints.data.length = dim * (h r).absPoints.n := by rw [hq.len, hq.n]
      obtain ⟨a1, a2, a3⟩ := hp.1 (h r).absPoints hq.adim hlen
      obtain ⟨b1, b2, b3⟩ := hp.1 (h' r).absPoints (hs.absPoints.dim.trans hq.adim)
        (by rw [hs.absPoints.len, hlen, hs.absPoints.n])
      refine ⟨{ hs with absPoints := ⟨?_, ?_, ?_, ?_⟩ }, fun _ => { hq with n := a1.trans hq.n, adim := ?_, len := ?_ }⟩
      · show (c.relToAbs (h' r).absPoints).n = (c.relToAbs (h r).absPoints).n
        rw [a1, b1, hs.absPoints.n]
      · show (c.relToAbs (h' r).absPoints).dim = (c.relToAbs (h r).absPoints).dim
        rw [a2, b2, hs.absPoints.dim]
      · show (c.relToAbs (h' r).absPoints).data.length = (c.relToAbs (h r).absPoints).data.length
        rw [a3, b3, hs.absPoints.len]
      · intro i hi j hj
        show (c.relToAbs (h' r).absPoints).data[i * (c.relToAbs (h r).absPoints).dim + j]? = _
        change j < (c.relToAbs (h r).absPoints).dim at hj
        rw [a2] at hj
        simp only [a2]
        exact hp.2 _ _ i hq.adim hlen hs.absPoints.n hs.absPoints.dim hs.absPoints.len (hs.absPoints.at' i hi) j hj
      · show (c.relToAbs (h r).absPoints).dim = dim
        rw [a2, hq.adim]
      · show (c.relToAbs (h r).absPoints).data.length = dim * (h r).points.n
        rw [a3, hq.len]
    · simp only [if_neg e]
      exact hh r'

theorem update_alike (hL : FilterLaws cfg.flt Ok) (hB : BlindFilter cfg.flt Ok) (hc : BlindDists dim cfg)
    {w v : World K L D F X} (h : Al cfg.detThr dim Ok N w v)
    {dets : Option (List Ref)} (hd : ∀ r ∈ dets.getD [], N r) (period : Int) {ct : Option (CoordTrans K)}
    (hct : ∀ c, ct = some c → Pointwise dim c.relToAbs) (hall : AllSeen (update cfg w dets period ct).1.objs) :
    AlRes cfg.detThr dim Ok N (update cfg w dets period ct) (update cfg v dets period ct) := by
  unfold update at hall ⊢
  cases ct with
  | none =>
    cases dets with
    | none => exact updateCore_alike hL hB hc h (dets := []) (by simp) period none hall
    | some l => exact updateCore_alike hL hB hc h hd period none hall
  | some c =>
    cases dets with
    | none => exact ⟨h, rfl⟩
    | some l =>
      obtain ⟨hg, h', hh, rfl⟩ := h
      exact updateCore_alike hL hB hc (w := { w with heap := l.foldl (transformDet c) w.heap })
        ⟨hg, _, transform_alike (hct c rfl) l hd hh, rfl⟩ hd period (some c) hall

end

end Norfair.Unseen
