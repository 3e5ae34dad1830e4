import Verif.Lemmas.ObjFields
import Verif.Lemmas.Age

/-! Order of the past detections when detections are not used twice. -/

set_option linter.unusedSectionVars false

namespace Norfair

variable {K L D F X : Type}

/-- past detections of an object of age `age`: different, with ages that do not decrease and do not
exceed the age of the object -/
structure GoodPast (h : Ref → Det K L X) (age : Int) (past : List Ref) : Prop where
  nodup : past.Nodup
  sorted : past.Pairwise (fun p q => ∀ a b, (h p).age = some a → (h q).age = some b → a ≤ b)
  bounds : ∀ q ∈ past, ∃ a, (h q).age = some a ∧ 0 ≤ a ∧ a ≤ age

/-- the ages of past detections are kept, unless they were old enough to be forgotten -/
def KeepsPast (n : Nat) (age : Int) (h h' : Ref → Det K L X) (past past' : List Ref) : Prop :=
  ∀ p ∈ past, ∀ a, (h p).age = some a → a * n ≤ age ∨ (p ∈ past' ∧ (h' p).age = some a)

theorem KeepsPast.trans {n : Nat} {age : Int} {h h' h'' : Ref → Det K L X} {p p' p'' : List Ref}
    (a : KeepsPast n age h h' p p') (b : KeepsPast n age h' h'' p' p'') :
    KeepsPast n age h h'' p p'' := by
  intro q hq x hx
  rcases a q hq x hx with h1 | ⟨h1, h2⟩
  · exact Or.inl h1
  · exact b q h1 x h2

theorem condAdd_cases {n : Nat} {age : Int} {h h' : Ref → Det K L X} {past past' : List Ref} {r : Ref}
    (hc : condAdd n age h past r = some (h', past')) :
    (h' = h ∧ past' = past) ∨ (h' = setAge h r age ∧ past' = past ++ [r]) ∨
    (h' = setAge h r age ∧ ∃ p rest a, past = p :: rest ∧ past' = rest ++ [r] ∧ (h p).age = some a ∧
      a * n ≤ age) := by
  unfold condAdd at hc
  split at hc
  · cases hc; exact Or.inl ⟨rfl, rfl⟩
  · split at hc
    · cases hc; exact Or.inr (Or.inl ⟨rfl, rfl⟩)
    · split at hc
      · cases hc; exact Or.inl ⟨rfl, rfl⟩
      · split at hc
        · cases hc
        · split at hc
          · rename_i a ha hle
            cases hc
            exact Or.inr (Or.inr ⟨rfl, _, _, a, rfl, rfl, ha, hle⟩)
          · cases hc; exact Or.inl ⟨rfl, rfl⟩

theorem setAge_ne (h : Ref → Det K L X) {r q : Ref} (a : Int) (hq : q ≠ r) : setAge h r a q = h q := by
  simp [setAge, hq]

theorem goodPast_append {h : Ref → Det K L X} {age : Int} {past : List Ref} {r : Ref}
    (hg : GoodPast h age past) (h0 : 0 ≤ age) (hr : r ∉ past) :
    GoodPast (setAge h r age) age (past ++ [r]) := by
  have hne : ∀ q ∈ past, q ≠ r := fun q hq e => hr (e ▸ hq)
  refine ⟨?_, ?_, ?_⟩
  · rw [List.nodup_append]
    refine ⟨hg.nodup, by simp, ?_⟩
    intro a ha b hb e
    simp only [List.mem_singleton] at hb
    exact hne a ha (e.trans hb)
  · rw [List.pairwise_append]
    refine ⟨?_, by simp, ?_⟩
    · refine hg.sorted.imp_of_mem ?_
      intro p q hp hq hpq
      rw [setAge_ne _ _ (hne p hp), setAge_ne _ _ (hne q hq)]
      exact hpq
    · intro p hp q hq a b ha hb
      simp only [List.mem_singleton] at hq
      subst hq
      rw [setAge_self] at hb
      rw [setAge_ne _ _ (hne p hp)] at ha
      obtain ⟨a', ha', _, hle⟩ := hg.bounds p hp
      rw [ha] at ha'
      cases ha'; cases hb
      exact hle
  · intro q hq
    rcases List.mem_append.mp hq with hq | hq
    · rw [setAge_ne _ _ (hne q hq)]; exact hg.bounds q hq
    · simp only [List.mem_singleton] at hq
      subst hq
      exact ⟨age, setAge_self _ _ _, h0, le_rfl⟩

theorem GoodPast.tail {h : Ref → Det K L X} {age : Int} {p : Ref} {past : List Ref}
    (hg : GoodPast h age (p :: past)) : GoodPast h age past :=
  ⟨hg.nodup.of_cons, hg.sorted.of_cons, fun q hq => hg.bounds q (by simp [hq])⟩

theorem GoodPast.congr {h h' : Ref → Det K L X} {age : Int} {past : List Ref}
    (hg : GoodPast h age past) (he : ∀ q ∈ past, (h' q).age = (h q).age) : GoodPast h' age past := by
  refine ⟨hg.nodup, hg.sorted.imp_of_mem ?_, ?_⟩
  · intro p q hp hq hpq
    rw [he p hp, he q hq]; exact hpq
  · intro q hq
    rw [he q hq]; exact hg.bounds q hq

theorem GoodPast.older {h : Ref → Det K L X} {age age' : Int} {past : List Ref}
    (hg : GoodPast h age past) (he : age ≤ age') : GoodPast h age' past := by
  refine ⟨hg.nodup, hg.sorted, fun q hq => ?_⟩
  obtain ⟨a, h1, h2, h3⟩ := hg.bounds q hq
  exact ⟨a, h1, h2, h3.trans he⟩

theorem condAdd_good {n : Nat} {age : Int} {h h' : Ref → Det K L X} {past past' : List Ref} {r : Ref}
    (hc : condAdd n age h past r = some (h', past')) (hg : GoodPast h age past) (h0 : 0 ≤ age)
    (hr : r ∉ past) :
    GoodPast h' age past' ∧ KeepsPast n age h h' past past' ∧ (∀ q, q ≠ r → h' q = h q) ∧
      ∀ q ∈ past', q ∈ past ∨ q = r := by
  have hne : ∀ q ∈ past, q ≠ r := fun q hq e => hr (e ▸ hq)
  rcases condAdd_cases hc with ⟨rfl, rfl⟩ | ⟨rfl, rfl⟩ | ⟨rfl, p, rest, a, rfl, rfl, ha, hle⟩
  · exact ⟨hg, fun p hp a ha => Or.inr ⟨hp, ha⟩, fun _ _ => rfl, fun _ h => Or.inl h⟩
  · refine ⟨goodPast_append hg h0 hr, ?_, fun q hq => setAge_ne _ _ hq, ?_⟩
    · intro p hp a ha
      exact Or.inr ⟨by simp [hp], by rw [setAge_ne _ _ (hne p hp)]; exact ha⟩
    · intro q hq
      simpa using hq
  · refine ⟨goodPast_append hg.tail h0 (fun h => hr (by simp [h])), ?_, fun q hq => setAge_ne _ _ hq, ?_⟩
    · intro q hq b hb
      rcases List.mem_cons.mp hq with rfl | hq'
      · rw [ha] at hb; cases hb
        exact Or.inl hle
      · exact Or.inr ⟨by simp [hq'], by rw [setAge_ne _ _ (hne q hq)]; exact hb⟩
    · intro q hq
      rcases List.mem_append.mp hq with hq | hq
      · exact Or.inl (by simp [hq])
      · exact Or.inr (by simpa using hq)

theorem condAddAll_good {n : Nat} {age : Int} (rs : List Ref) (h : Ref → Det K L X) (past : List Ref)
    (hg : GoodPast h age past) (h0 : 0 ≤ age) (hrs : rs.Nodup) (hd : ∀ q ∈ past, q ∉ rs) :
    GoodPast (condAddAll n age h past rs).1 age (condAddAll n age h past rs).2.1 ∧
    KeepsPast n age h (condAddAll n age h past rs).1 past (condAddAll n age h past rs).2.1 ∧
    (∀ q, q ∉ rs → (condAddAll n age h past rs).1 q = h q) := by
  induction rs generalizing h past with
  | nil => exact ⟨hg, fun p hp a ha => Or.inr ⟨hp, ha⟩, fun _ _ => rfl⟩
  | cons r rs ih =>
    unfold condAddAll
    split
    · exact ⟨hg, fun p hp a ha => Or.inr ⟨hp, ha⟩, fun _ _ => rfl⟩
    · rename_i h' past' hc
      rw [List.nodup_cons] at hrs
      obtain ⟨g1, k1, e1, m1⟩ := condAdd_good hc hg h0 (fun hm => hd r hm (by simp))
      obtain ⟨g2, k2, e2⟩ := ih h' past' g1 hrs.2 (by
        intro q hq hm
        rcases m1 q hq with h1 | rfl
        · exact hd q h1 (by simp [hm])
        · exact hrs.1 hm)
      refine ⟨g2, k1.trans k2, fun q hq => ?_⟩
      rw [List.mem_cons, not_or] at hq
      rw [e2 q hq.2, e1 q hq.1]

/-- The state of the past detections of all objects, relative to an earlier state `(h0, objs0)` of the
same objects: `S` are detections not used so far. -/
structure PastOk (n : Nat) (h0 : Ref → Det K L X) (objs0 : List (Obj K L D F)) (S : Ref → Prop)
    (h : Ref → Det K L X) (objs : List (Obj K L D F)) : Prop where
  good : ∀ o ∈ objs, GoodPast h o.age o.past
  age : ∀ o ∈ objs, 0 ≤ o.age
  disj : ∀ o ∈ objs, ∀ p ∈ objs, o.initId ≠ p.initId → ∀ q ∈ o.past, q ∉ p.past
  fresh : ∀ o ∈ objs, ∀ q ∈ o.past, ¬ S q
  rel : ∀ o0 ∈ objs0, ∀ o ∈ objs, o.initId = o0.initId →
    o.age = o0.age ∧ KeepsPast n o.age h0 h o0.past o.past

theorem PastOk.mono {n : Nat} {h0 h : Ref → Det K L X} {objs0 objs : List (Obj K L D F)}
    {S T : Ref → Prop} (P : PastOk n h0 objs0 S h objs) (hT : ∀ q, T q → S q) :
    PastOk n h0 objs0 T h objs :=
  ⟨P.good, P.age, P.disj, fun o ho q hq ht => P.fresh o ho q hq (hT q ht), P.rel⟩

theorem PastOk.ages {n : Nat} {h0 h h' : Ref → Det K L X} {objs0 objs : List (Obj K L D F)}
    {S : Ref → Prop} (P : PastOk n h0 objs0 S h objs)
    (he : ∀ o ∈ objs, ∀ q ∈ o.past, (h' q).age = (h q).age) :
    PastOk n h0 objs0 S h' objs := by
  refine ⟨fun o ho => (P.good o ho).congr (he o ho), P.age, P.disj, P.fresh, ?_⟩
  intro o0 h0' o ho e
  obtain ⟨h1, h2⟩ := P.rel o0 h0' o ho e
  refine ⟨h1, fun p hp a ha => ?_⟩
  rcases h2 p hp a ha with h3 | ⟨h3, h4⟩
  · exact Or.inl h3
  · exact Or.inr ⟨h3, by rw [he o ho p h3]; exact h4⟩

/-- one object changes, taking the detections `N` -/
theorem PastOk.change {n : Nat} {h0 h h' : Ref → Det K L X} {objs0 objs objs' : List (Obj K L D F)}
    {S T : Ref → Prop} (P : PastOk n h0 objs0 S h objs) {o o' : Obj K L D F} (ho : o ∈ objs)
    (hid : o'.initId = o.initId) (hage : o'.age = o.age) (N : Ref → Prop)
    (hmem : ∀ p ∈ objs', p = o' ∨ (p ∈ objs ∧ p.initId ≠ o.initId ∧ ∀ q ∈ p.past, ¬ N q))
    (hT : ∀ q, T q → S q ∧ ¬ N q) (hh : ∀ q, ¬ N q → h' q = h q)
    (hpast : ∀ q ∈ o'.past, q ∈ o.past ∨ N q) (hg : GoodPast h' o'.age o'.past)
    (hk : KeepsPast n o.age h h' o.past o'.past) : PastOk n h0 objs0 T h' objs' := by
  refine ⟨?_, ?_, ?_, ?_, ?_⟩
  · intro p hp
    rcases hmem p hp with rfl | ⟨h1, h2, h3⟩
    · exact hg
    · exact (P.good p h1).congr (fun q hq => by rw [hh q (h3 q hq)])
  · intro p hp
    rcases hmem p hp with rfl | ⟨h1, h2, h3⟩
    · rw [hage]; exact P.age o ho
    · exact P.age p h1
  · intro p hp r hr hne q hq hq'
    rcases hmem p hp with rfl | ⟨h1, h2, h3⟩
    · rcases hmem r hr with rfl | ⟨h1', h2', h3'⟩
      · exact hne rfl
      · rcases hpast q hq with h4 | h4
        · exact P.disj o ho r h1' (fun e => h2' e.symm) q h4 hq'
        · exact h3' q hq' h4
    · rcases hmem r hr with rfl | ⟨h1', h2', h3'⟩
      · rcases hpast q hq' with h4 | h4
        · exact P.disj o ho p h1 (fun e => h2 e.symm) q h4 hq
        · exact h3 q hq h4
      · exact P.disj p h1 r h1' hne q hq hq'
  · intro p hp q hq ht
    rcases hmem p hp with rfl | ⟨h1, h2, h3⟩
    · rcases hpast q hq with h4 | h4
      · exact P.fresh o ho q h4 (hT q ht).1
      · exact (hT q ht).2 h4
    · exact P.fresh p h1 q hq (hT q ht).1
  · intro o0 ho0 p hp e
    rcases hmem p hp with rfl | ⟨h1, h2, h3⟩
    · obtain ⟨h4, h5⟩ := P.rel o0 ho0 o ho (hid.symm.trans e)
      rw [hage]
      exact ⟨h4, h5.trans hk⟩
    · obtain ⟨h4, h5⟩ := P.rel o0 ho0 p h1 e
      refine ⟨h4, fun q hq a ha => ?_⟩
      rcases h5 q hq a ha with h6 | ⟨h6, h7⟩
      · exact Or.inl h6
      · exact Or.inr ⟨h6, by rw [hh q (h3 q h6)]; exact h7⟩

section
variable [LinearOrder K] [Zero K] [LinearOrder D] [OrderTop D] [Zero D] [DecidableEq L]

/-- writing back an object with the same past detections -/
theorem PastOk.put_same {n : Nat} {h0 : Ref → Det K L X} {objs0 : List (Obj K L D F)}
    {S : Ref → Prop} {w : World K L D F X} (P : PastOk n h0 objs0 S w.heap w.objs) {o o' : Obj K L D F}
    (ho : o ∈ w.objs) (h1 : o'.initId = o.initId) (h2 : o'.age = o.age) (h3 : o'.past = o.past) :
    PastOk n h0 objs0 S (w.put o').heap (w.put o').objs := by
  refine P.change (o' := o') ho h1 h2 (fun _ => False) ?_ (fun q hq => ⟨hq, id⟩) (fun _ _ => rfl) ?_ ?_ ?_
  · intro p hp
    rcases World.mem_put hp with ⟨h, _⟩ | ⟨h, h'⟩
    · exact Or.inl h
    · exact Or.inr ⟨h, by rw [← h1]; exact h', fun _ _ h => h⟩
  · intro q hq; rw [h3] at hq; exact Or.inl hq
  · rw [h2, h3]; exact P.good o ho
  · rw [h3]; exact fun p hp a ha => Or.inr ⟨hp, ha⟩

theorem setMins_past {n : Nat} {h0 : Ref → Det K L X} {objs0 : List (Obj K L D F)}
    {S : Ref → Prop} (thr : D) (M : Mat D) (ks : List Nat) (j : Nat) (w : World K L D F X)
    (P : PastOk n h0 objs0 S w.heap w.objs) :
    PastOk n h0 objs0 S (setMins thr M j ks w).heap (setMins thr M j ks w).objs := by
  induction ks generalizing j w with
  | nil => exact P
  | cons k ks ih =>
    unfold setMins
    simp only
    split
    · rename_i o ho
      exact ih _ _ (P.put_same (World.find_some ho).1 rfl rfl rfl)
    · exact ih _ _ P

theorem hit_past {cfg : Cfg K L D F X} {h0 : Ref → Det K L X} {objs0 : List (Obj K L D F)}
    {S T : Ref → Prop} {w : World K L D F X} (P : PastOk cfg.pastLen h0 objs0 S w.heap w.objs)
    {k : Nat} {o : Obj K L D F} (ho : w.find k = some o) {r : Ref} (hr : S r) (period : Int)
    (hT : ∀ q, T q → S q ∧ q ≠ r) (o' : Obj K L D F)
    (ho' : ∃ v, o' = { (hitObj cfg w.heap w.gcount w.count o r period).obj with lastDistance := v })
    (g c : Nat) (w' : World K L D F X) (hw' : w' = ({ w with heap := (hitObj cfg w.heap w.gcount w.count o r period).heap, gcount := g, count := c } : World K L D F X).put o') :
    PastOk cfg.pastLen h0 objs0 T w'.heap w'.objs := by
  obtain ⟨v, rfl⟩ := ho'
  subst hw'
  have hm := (World.find_some ho).1
  have hnot : ∀ p ∈ w.objs, r ∉ p.past := fun p hp hq => P.fresh p hp r hq hr
  obtain ⟨a1, a2, a3, a4, a5, a6, a7, a8, a9, e⟩ := hitObj_shape cfg w.heap w.gcount w.count o r period
  have e1 : (hitObj cfg w.heap w.gcount w.count o r period).obj.initId = o.initId := by rw [e]
  have e2 : (hitObj cfg w.heap w.gcount w.count o r period).obj.age = o.age := by rw [e]
  have hcase : GoodPast (hitObj cfg w.heap w.gcount w.count o r period).heap o.age
        (hitObj cfg w.heap w.gcount w.count o r period).obj.past ∧
      KeepsPast cfg.pastLen o.age w.heap (hitObj cfg w.heap w.gcount w.count o r period).heap o.past
        (hitObj cfg w.heap w.gcount w.count o r period).obj.past ∧
      (∀ q, q ≠ r → (hitObj cfg w.heap w.gcount w.count o r period).heap q = w.heap q) ∧
      ∀ q ∈ (hitObj cfg w.heap w.gcount w.count o r period).obj.past, q ∈ o.past ∨ q = r := by
    rcases hitObj_past_eq cfg w.heap w.gcount w.count o r period with ⟨_, h1, h2⟩ | hc
    · rw [h1, h2]
      exact ⟨P.good o hm, fun p hp a ha => Or.inr ⟨hp, ha⟩, fun _ _ => rfl, fun _ h => Or.inl h⟩
    · exact condAdd_good hc (P.good o hm) (P.age o hm) (hnot o hm)
  refine P.change
    (o' := { (hitObj cfg w.heap w.gcount w.count o r period).obj with lastDistance := v })
    hm e1 e2 (fun q => q = r) ?_ hT (fun q hq => hcase.2.2.1 q hq) hcase.2.2.2 ?_ hcase.2.1
  · intro p hp
    rcases World.mem_put hp with ⟨h, _⟩ | ⟨h, h'⟩
    · exact Or.inl h
    · refine Or.inr ⟨h, ?_, ?_⟩
      · intro e; exact h' (e.trans e1.symm)
      · intro q hq e; subst e; exact hnot p h hq
  · show GoodPast _ (hitObj cfg w.heap w.gcount w.count o r period).obj.age _
    rw [e2]; exact hcase.1

theorem hitLoop_past (cfg : Cfg K L D F X) {h0 : Ref → Det K L X} {objs0 : List (Obj K L D F)}
    (thr : D) (period : Int) (M : Mat D) (dets : List Ref) (hd : dets.Nodup) (keys : List Nat)
    (U : Ref → Prop) (ps : List (Nat × Nat)) (hps : (ps.map Prod.fst).Nodup)
    (hU : ∀ p ∈ ps, ∀ q, dets[p.1]? = some q → ¬ U q)
    (w : World K L D F X) (out : StageOut Ref)
    (P : PastOk cfg.pastLen h0 objs0 (fun q => U q ∨ ∃ p ∈ ps, dets[p.1]? = some q) w.heap w.objs) :
    PastOk cfg.pastLen h0 objs0 U (hitLoop cfg thr period M dets keys ps w out).1.heap
      (hitLoop cfg thr period M dets keys ps w out).1.objs := by
  induction ps generalizing w out with
  | nil => exact P.mono (fun q hq => Or.inl hq)
  | cons p ps ih =>
    obtain ⟨i, j⟩ := p
    rw [List.map_cons, List.nodup_cons] at hps
    have hrest : PastOk cfg.pastLen h0 objs0 (fun q => U q ∨ ∃ p ∈ ps, dets[p.1]? = some q)
        w.heap w.objs := P.mono (by
      rintro q (h1 | ⟨p, h1, h2⟩)
      · exact Or.inl h1
      · exact Or.inr ⟨p, by simp [h1], h2⟩)
    have ih' := fun w out P => ih hps.2 (fun p hp => hU p (by simp [hp])) w out P
    unfold hitLoop
    split
    · rename_i r k hr hk
      split
      · split
        · rename_i o ho
          have hT : ∀ q, (U q ∨ ∃ p ∈ ps, dets[p.1]? = some q) →
              (U q ∨ ∃ p ∈ (i, j) :: ps, dets[p.1]? = some q) ∧ q ≠ r := by
            rintro q (h1 | ⟨p, h1, h2⟩)
            · refine ⟨Or.inl h1, ?_⟩
              rintro rfl
              exact hU (i, j) (by simp) q hr h1
            · refine ⟨Or.inr ⟨p, by simp [h1], h2⟩, ?_⟩
              rintro rfl
              have hlt : i < dets.length := (List.getElem?_eq_some_iff.mp hr).1
              have : i = p.1 := (List.getElem?_inj hlt hd).mp (hr.trans h2.symm)
              exact hps.1 (List.mem_map.mpr ⟨p, h1, this.symm⟩)
          have hSr : U r ∨ ∃ p ∈ (i, j) :: ps, dets[p.1]? = some r := Or.inr ⟨(i, j), by simp, hr⟩
          simp only
          split
          · refine (hit_past P ho hSr period hT _ ⟨_, rfl⟩ _ _ _ rfl).mono (fun q hq => Or.inl hq)
          · apply ih'
            exact hit_past P ho hSr period hT _ ⟨_, rfl⟩ _ _ _ rfl
        · exact ih' _ _ hrest
      · exact ih' _ _ hrest
    · exact ih' _ _ hrest

theorem hitLoop_unmatchedC (cfg : Cfg K L D F X) (thr : D) (period : Int) (M : Mat D) (dets : List Ref)
    (keys : List Nat) (ps : List (Nat × Nat)) (hps : ∀ p ∈ ps, M.val p.1 p.2 < thr)
    (w : World K L D F X) (out : StageOut Ref) {w' out'}
    (h : hitLoop cfg thr period M dets keys ps w out = (w', .ok out')) :
    out'.unmatchedC = out.unmatchedC := by
  induction ps generalizing w out with
  | nil => cases h; rfl
  | cons p ps ih =>
    obtain ⟨i, j⟩ := p
    have hlt : M.val i j < thr := hps (i, j) (by simp)
    have ih' := fun w (out : StageOut Ref) (h : hitLoop cfg thr period M dets keys ps w out = (w', .ok out')) =>
      ih (fun p hp => hps p (by simp [hp])) w out h
    unfold hitLoop at h
    split at h
    · rw [if_pos hlt] at h
      split at h
      · simp only at h
        split at h
        · cases h
        · exact (ih' _ _ h).trans rfl
      · exact ih' _ _ h
    · exact ih' _ _ h

theorem stageDet_past (cfg : Cfg K L D F X) {h0 : Ref → Det K L X} {objs0 : List (Obj K L D F)}
    (period : Int) (w : World K L D F X) (keys : List Nat) (dets : List Ref) (hd : dets.Nodup)
    (P : PastOk cfg.pastLen h0 objs0 (· ∈ dets) w.heap w.objs) :
    PastOk cfg.pastLen h0 objs0 (fun _ => False) (stageDet cfg period w keys dets).1.heap
      (stageDet cfg period w keys dets).1.objs ∧
    ∀ out, (stageDet cfg period w keys dets).2 = .ok out → out.unmatchedC.Nodup ∧
      PastOk cfg.pastLen h0 objs0 (· ∈ out.unmatchedC) (stageDet cfg period w keys dets).1.heap
        (stageDet cfg period w keys dets).1.objs := by
  have hF : ∀ (S : Ref → Prop) (v : World K L D F X), PastOk cfg.pastLen h0 objs0 S v.heap v.objs →
      PastOk cfg.pastLen h0 objs0 (fun _ => False) v.heap v.objs := fun S v hP => hP.mono (fun _ h => h.elim)
  unfold stageDet
  split
  · refine ⟨hF _ _ P, ?_⟩
    intro out h
    cases h
    exact ⟨List.nodup_nil, P.mono (by simp)⟩
  · split
    · exact ⟨hF _ _ P, by simp⟩
    · rename_i M hM
      split
      · exact ⟨hF _ _ P, by simp⟩
      · simp only
        set M' : Mat D := M.map (fun x => x.getD ⊤) with hM'
        set w1 := (if M'.anyNonzero = true then setMins cfg.thr M' 0 keys w else w) with hw1
        have P1 : PastOk cfg.pastLen h0 objs0 (· ∈ dets) w1.heap w1.objs := by
          rw [hw1]
          split
          · exact setMins_past _ _ _ _ _ P
          · exact P
        split
        · exact ⟨hF _ _ P1, by simp⟩
        · rename_i pairs hp
          have hg := matchReturns_greedy ⟨_, hp⟩
          split
          · have P2 : PastOk cfg.pastLen h0 objs0 (· ∈ unmatchedOf dets (pairs.map Prod.fst))
                (hitLoop cfg cfg.thr period M' dets keys pairs w1
              ⟨unmatchedOf dets (pairs.map Prod.fst), [], unmatchedOf keys (pairs.map Prod.snd)⟩).1.heap
                (hitLoop cfg cfg.thr period M' dets keys pairs w1
              ⟨unmatchedOf dets (pairs.map Prod.fst), [], unmatchedOf keys (pairs.map Prod.snd)⟩).1.objs := by
              apply hitLoop_past cfg cfg.thr period M' dets hd keys _ pairs hg.rowsNodup
              · intro p hp' q hq hm
                obtain ⟨i, hi, hni⟩ := mem_unmatchedOf.mp hm
                have hlt : i < dets.length := (List.getElem?_eq_some_iff.mp hi).1
                have : i = p.1 := (List.getElem?_inj hlt hd).mp (hi.trans hq.symm)
                exact hni (this ▸ List.mem_map_of_mem (f := Prod.fst) hp')
              · refine P1.mono ?_
                rintro q (h1 | ⟨p, _, h2⟩)
                · exact unmatchedOf_subset h1
                · exact List.mem_of_getElem? h2
            refine ⟨hF _ _ P2, ?_⟩
            intro out ho
            have := hitLoop_unmatchedC cfg cfg.thr period M' dets keys pairs hg.below w1 _
              (Prod.ext rfl ho)
            rw [this]
            exact ⟨(unmatchedOf_sublist _ _).nodup hd, P2⟩
          · refine ⟨hF _ _ P1, ?_⟩
            intro out ho
            cases ho
            exact ⟨hd, P1⟩

theorem mergeLoop_past (cfg : Cfg K L D F X) {h0 : Ref → Det K L X} {objs0 : List (Obj K L D F)}
    {S : Ref → Prop} (thr : D) (M : Mat D) (cands keys : List Nat)
    (hdisj : ∀ c ∈ cands, ∀ k ∈ keys, c ≠ k) (ps : List (Nat × Nat))
    (w : World K L D F X) (out : StageOut Nat)
    (P : PastOk cfg.pastLen h0 objs0 S w.heap w.objs) :
    PastOk cfg.pastLen h0 objs0 S (mergeLoop cfg thr M cands keys ps w out).1.heap
      (mergeLoop cfg thr M cands keys ps w out).1.objs := by
  induction ps generalizing w out with
  | nil => exact P
  | cons p ps ih =>
    obtain ⟨i, j⟩ := p
    unfold mergeLoop
    split
    · rename_i c k hc hk
      split
      · split
        · rename_i oc o hoc ho
          simp only
          have hm := (World.find_some ho).1
          have hmc := (World.find_some hoc).1
          have hne : oc.initId ≠ o.initId := by
            rw [(World.find_some ho).2, (World.find_some hoc).2]
            exact hdisj c (List.mem_of_getElem? hc) k (List.mem_of_getElem? hk)
          have hpa := P.good o hm
          have hnone : (mergeObj cfg w.heap o oc).2.2 = none := by
            have := (condAddAll_past (n := cfg.pastLen) (age := o.age) oc.past w.heap o.past (by
              intro q hq
              obtain ⟨a, ha, _⟩ := hpa.bounds q hq
              rw [ha]; simp)).1
            simp [mergeObj, this]
          rw [hnone]
          simp only
          apply ih
          obtain ⟨g1, k1, e1⟩ := condAddAll_good (n := cfg.pastLen) (age := o.age) oc.past w.heap o.past
            hpa (P.age o hm) (P.good oc hmc).nodup
            (fun q hq => P.disj o hm oc hmc (fun e => hne e.symm) q hq)
          refine P.change (o' := (mergeObj cfg w.heap o oc).2.1) hm rfl rfl (fun q => q ∈ oc.past) ?_ ?_
            e1 (condAddAll_mem _ _ _) g1 k1
          · intro p hp
            rw [List.mem_filter] at hp
            rcases World.mem_put hp.1 with ⟨h, _⟩ | ⟨h, h'⟩
            · exact Or.inl h
            · refine Or.inr ⟨h, h', ?_⟩
              intro q hq hq'
              have hpc : p.initId ≠ c := by simpa using hp.2
              refine P.disj p h oc hmc ?_ q hq hq'
              rw [(World.find_some hoc).2]; exact hpc
          · intro q hq
            exact ⟨hq, fun hm' => P.fresh oc hmc q hm' hq⟩
        · exact ih _ _ P
      · exact ih _ _ P
    · exact ih _ _ P

theorem reidStage_past (cfg : Cfg K L D F X) {h0 : Ref → Det K L X} {objs0 : List (Obj K L D F)}
    {S : Ref → Prop} (w : World K L D F X) (keys cands : List Nat)
    (hdisj : ∀ c ∈ cands, ∀ k ∈ keys, c ≠ k)
    (P : PastOk cfg.pastLen h0 objs0 S w.heap w.objs) :
    PastOk cfg.pastLen h0 objs0 S (reidStage cfg w keys cands).1.heap
      (reidStage cfg w keys cands).1.objs := by
  unfold reidStage
  split
  · exact P
  · unfold stageReid
    split
    · exact P
    · split
      · exact P
      · rename_i M hM
        split
        · exact P
        · simp only
          set M' : Mat D := M.map (fun x => x.getD ⊤) with hM'
          set w1 := (if M'.anyNonzero = true then setMins cfg.reidThr M' 0 keys w else w) with hw1
          have P1 : PastOk cfg.pastLen h0 objs0 S w1.heap w1.objs := by
            rw [hw1]
            split
            · exact setMins_past _ _ _ _ _ P
            · exact P
          split
          · exact P1
          · split
            · exact mergeLoop_past cfg _ _ _ _ hdisj _ _ _ P1
            · exact P1

theorem foldl_create_past (cfg : Cfg K L D F X) {h0 : Ref → Det K L X} {objs0 : List (Obj K L D F)}
    (period : Int) (ct : Option (CoordTrans K)) (rs : List Ref) (hrs : rs.Nodup)
    (w : World K L D F X) (hb : ∀ o ∈ objs0, o.initId ≤ w.initCount) (hI : ∀ o ∈ w.objs, o.initId ≤ w.initCount)
    (P : PastOk cfg.pastLen h0 objs0 (· ∈ rs) w.heap w.objs) :
    PastOk cfg.pastLen h0 objs0 (fun _ => False)
      (rs.foldl (fun w r => createObj cfg w r period ct) w).heap
      (rs.foldl (fun w r => createObj cfg w r period ct) w).objs := by
  induction rs generalizing w with
  | nil => exact P.mono (fun _ h => h.elim)
  | cons r rs ih =>
    rw [List.foldl_cons]
    rw [List.nodup_cons] at hrs
    obtain ⟨_, _, _, _, _, _, f1, f2, _⟩ := newObj_none_fields cfg w r period ct
    have f3 : (newObj cfg w r period ct).initId = w.initCount + 1 := by
      obtain ⟨g, hg⟩ := newObj_fields cfg w r period ct
      rw [hg]; rfl
    have hnot : ∀ o ∈ w.objs, ∀ q ∈ o.past, q ≠ r := by
      rintro o ho q hq rfl
      exact P.fresh o ho q hq (by simp)
    have P1 : PastOk cfg.pastLen h0 objs0 (· ∈ r :: rs) (setAge w.heap r 0) w.objs :=
      P.ages (fun o ho q hq => by rw [setAge_ne _ _ (hnot o ho q hq)])
    have hpast : ∀ q ∈ (newObj cfg w r period ct).past, q = r := newObj_past cfg w r period ct
    apply ih hrs.2
    · intro o ho
      rw [createObj_eq]
      exact (hb o ho).trans (Nat.le_succ _)
    · intro o ho
      rw [createObj_eq] at ho ⊢
      rcases List.mem_append.mp ho with ho | ho
      · exact (hI o ho).trans (Nat.le_succ _)
      · simp only [List.mem_singleton] at ho
        rw [ho, f3]
    · rw [createObj_eq]
      simp only
      refine ⟨?_, ?_, ?_, ?_, ?_⟩
      · intro o ho
        rcases List.mem_append.mp ho with ho | ho
        · exact P1.good o ho
        · simp only [List.mem_singleton] at ho
          rw [ho, f1, f2]
          split
          · refine ⟨by simp, by simp, ?_⟩
            intro q hq
            simp only [List.mem_singleton] at hq
            subst hq
            exact ⟨0, setAge_self _ _ _, le_rfl, le_rfl⟩
          · exact ⟨by simp, by simp, by simp⟩
      · intro o ho
        rcases List.mem_append.mp ho with ho | ho
        · exact P1.age o ho
        · simp only [List.mem_singleton] at ho
          rw [ho, f1]
      · intro o ho p hp hne q hq hq'
        rcases List.mem_append.mp ho with ho | ho
        · rcases List.mem_append.mp hp with hp | hp
          · exact P.disj o ho p hp hne q hq hq'
          · simp only [List.mem_singleton] at hp
            subst hp
            exact hnot o ho q hq (hpast q hq')
        · simp only [List.mem_singleton] at ho
          subst ho
          rcases List.mem_append.mp hp with hp | hp
          · exact hnot p hp q hq' (hpast q hq)
          · simp only [List.mem_singleton] at hp
            subst hp
            exact hne rfl
      · intro o ho q hq hm
        rcases List.mem_append.mp ho with ho | ho
        · exact P.fresh o ho q hq (by simp [hm])
        · simp only [List.mem_singleton] at ho
          subst ho
          rw [hpast q hq] at hm
          exact hrs.1 hm
      · intro o0 ho0 o ho e
        rcases List.mem_append.mp ho with ho | ho
        · exact P1.rel o0 ho0 o ho e
        · simp only [List.mem_singleton] at ho
          subst ho
          rw [f3] at e
          have := hb o0 ho0
          omega

theorem advance_past (cfg : Cfg K L D F X) (ct : Option (CoordTrans K)) (w : World K L D F X)
    (hn : w.keys.Nodup) {S : Ref → Prop} (P : PastOk cfg.pastLen w.heap [] S w.heap w.objs) :
    PastOk cfg.pastLen w.heap (advance cfg ct w).objs S w.heap (advance cfg ct w).objs := by
  have hmem : ∀ o ∈ (advance cfg ct w).objs, ∃ p ∈ w.objs, o.initId = p.initId ∧ o.age = p.age + 1 ∧
      o.past = p.past := by
    intro o ho
    simp only [advance, List.mem_map] at ho
    obtain ⟨p, hp, rfl⟩ := ho
    obtain ⟨g, e⟩ := updateCT_fields ct (p.trackerStep cfg)
    rw [e]
    exact ⟨p, (survivors_sublist cfg w.objs).subset hp, rfl, rfl, rfl⟩
  have hn' : (advance cfg ct w).keys.Nodup := by
    rw [advance_keys]; exact ((survivors_sublist cfg w.objs).map _).nodup hn
  refine ⟨?_, ?_, ?_, ?_, ?_⟩
  · intro o ho
    obtain ⟨p, hp, _, e2, e3⟩ := hmem o ho
    rw [e2, e3]
    exact (P.good p hp).older (by omega)
  · intro o ho
    obtain ⟨p, hp, _, e2, e3⟩ := hmem o ho
    rw [e2]; have := P.age p hp; omega
  · intro o ho o' ho' hne q hq
    obtain ⟨p, hp, e1, e2, e3⟩ := hmem o ho
    obtain ⟨p', hp', e1', e2', e3'⟩ := hmem o' ho'
    rw [e3] at hq
    rw [e3']
    exact P.disj p hp p' hp' (by rw [← e1, ← e1']; exact hne) q hq
  · intro o ho q hq
    obtain ⟨p, hp, e1, e2, e3⟩ := hmem o ho
    rw [e3] at hq
    exact P.fresh p hp q hq
  · intro o0 ho0 o ho e
    have : o = o0 := World.eq_of_mem_of_key hn' ho ho0 e
    subst this
    exact ⟨rfl, fun p hp a ha => Or.inr ⟨hp, ha⟩⟩

theorem updateCore_past (cfg : Cfg K L D F X) (w : World K L D F X) (hI : Inv w)
    (dets : List Ref) (hd : dets.Nodup) (period : Int) (ct : Option (CoordTrans K))
    (P : PastOk cfg.pastLen w.heap [] (· ∈ dets) w.heap w.objs) :
    PastOk cfg.pastLen w.heap (advance cfg ct w).objs (fun _ => False)
      (updateCore cfg w dets period ct).1.heap (updateCore cfg w dets period ct).1.objs := by
  have hn := hI.nodup
  have P0 := advance_past cfg ct w hn P
  have hmono : ∀ (S : Ref → Prop) (v : World K L D F X),
      PastOk cfg.pastLen w.heap (advance cfg ct w).objs S v.heap v.objs →
      PastOk cfg.pastLen w.heap (advance cfg ct w).objs (fun _ => False) v.heap v.objs :=
    fun S v hP => hP.mono (fun _ h => h.elim)
  cases hres : updateCore cfg w dets period ct with
  | mk w' res =>
    have hb0 : ∀ o ∈ (advance cfg ct w).objs, o.initId ≤ w.initCount := by
      intro o ho
      simp only [advance, List.mem_map] at ho
      obtain ⟨p, hp, rfl⟩ := ho
      obtain ⟨g, e⟩ := updateCT_fields ct (p.trackerStep cfg)
      rw [e]
      exact (hI.bounded p ((survivors_sublist cfg w.objs).subset hp)).2
    cases res with
    | ok act =>
      obtain ⟨w1, w2, w3, out1, out2, ks2, ks3, m3, S⟩ := updateCore_stages hn hres
      have s1 := stageDet_past cfg period (advance cfg ct w) (stage1Keys cfg ct w) dets hd P0
      rw [S.s1] at s1
      obtain ⟨n1, P1⟩ := s1.2 out1 rfl
      have s2 := stageDet_past cfg period w1 ks2 out1.unmatchedC n1 P1
      rw [S.s2] at s2
      obtain ⟨n2, P2⟩ := s2.2 out2 rfl
      have s3 := reidStage_past cfg w2 ks3 out2.matchedO S.disj23 P2
      obtain ⟨out3, e3⟩ := S.s3
      rw [e3] at s3
      rw [S.s4]
      refine foldl_create_past cfg period ct out2.unmatchedC n2 w3 ?_ ?_ s3
      · rw [S.init3]; exact hb0
      · intro o ho
        rw [S.init3]
        have hk : o.initId ∈ w3.keys := List.mem_map_of_mem ho
        rw [S.reid.left, List.mem_filter, S.keys2] at hk
        obtain ⟨p, hp, e⟩ := List.mem_map.mp hk.1
        rw [← e]; exact hb0 p hp
    | error e =>
      unfold updateCore at hres
      simp only at hres
      rw [show ((advance cfg ct w).keysWhere (aliveKeys cfg w.objs) fun o => !o.isInit) =
        stage1Keys cfg ct w from rfl] at hres
      have s1 := stageDet_past cfg period (advance cfg ct w) (stage1Keys cfg ct w) dets hd P0
      split at hres
      · rename_i w1 e1 hs1
        cases hres
        rw [hs1] at s1
        exact s1.1
      · rename_i w1 out1 hs1
        rw [hs1] at s1
        obtain ⟨n1, P1⟩ := s1.2 out1 rfl
        have s2 := stageDet_past cfg period w1
          (w1.keysWhere (aliveKeys cfg w.objs) (fun o => o.isInit)) out1.unmatchedC n1 P1
        split at hres
        · rename_i w2 e2 hs2
          cases hres
          rw [hs2] at s2
          exact s2.1
        · rename_i w2 out2 hs2
          rw [hs2] at s2
          obtain ⟨n2, P2⟩ := s2.2 out2 rfl
          split at hres
          · rename_i w3 e3 hs3
            cases hres
            have s3 := reidStage_past cfg w2 (out1.unmatchedO ++ deadKeys cfg w.objs) out2.matchedO
              (reid_disjoint hn hs1 hs2) P2
            rw [hs3] at s3
            exact hmono _ _ s3
          · cases hres

theorem transform_age (c : CoordTrans K) (l : List Ref) (h : Ref → Det K L X) (q : Ref) :
    (l.foldl (transformDet c) h q).age = (h q).age := by
  induction l generalizing h with
  | nil => rfl
  | cons r l ih =>
    rw [List.foldl_cons, ih]
    obtain ⟨a, ha⟩ := transformDet_fields c h r q
    rw [ha]

theorem startHeap_age (w : World K L D F X) (dets : Option (List Ref)) (ct : Option (CoordTrans K)) (q : Ref) :
    (startHeap w dets ct q).age = (w.heap q).age := by
  unfold startHeap
  split
  · exact transform_age _ _ _ _
  · rfl

theorem update_past (cfg : Cfg K L D F X) (w : World K L D F X) (hI : Inv w)
    (dets : Option (List Ref)) (hd : (dets.getD []).Nodup) (period : Int) (ct : Option (CoordTrans K))
    (P : PastOk cfg.pastLen w.heap [] (· ∈ dets.getD []) w.heap w.objs) :
    PastOk cfg.pastLen (update cfg w dets period ct).1.heap [] (fun _ => False)
      (update cfg w dets period ct).1.heap (update cfg w dets period ct).1.objs ∧
    ∀ o ∈ w.objs, ∀ o' ∈ (update cfg w dets period ct).1.objs, o'.initId = o.initId →
      ∀ p ∈ o.past, ∀ a, (w.heap p).age = some a → p ∉ o'.past → a * cfg.pastLen ≤ o.age + 1 := by
  have key : ∀ (h : Ref → Det K L X) (l : List Ref), (∀ q, (h q).age = (w.heap q).age) →
      l = dets.getD [] → update cfg w dets period ct = updateCore cfg { w with heap := h } l period ct →
      PastOk cfg.pastLen (update cfg w dets period ct).1.heap [] (fun _ => False)
        (update cfg w dets period ct).1.heap (update cfg w dets period ct).1.objs ∧
      ∀ o ∈ w.objs, ∀ o' ∈ (update cfg w dets period ct).1.objs, o'.initId = o.initId →
        ∀ p ∈ o.past, ∀ a, (w.heap p).age = some a → p ∉ o'.past → a * cfg.pastLen ≤ o.age + 1 := by
    intro h l hh hl hu
    subst hl
    have P' : PastOk cfg.pastLen h [] (· ∈ dets.getD []) h w.objs := by
      have := P.ages (h' := h) (fun o _ q _ => hh q)
      exact ⟨this.good, this.age, this.disj, this.fresh, by simp⟩
    have R := updateCore_past cfg { w with heap := h } (env_inv hI (heap := h) (g := w.gcount)
      ⟨le_rfl, fun r hr => by rw [hh]; exact hr⟩).1 (dets.getD []) hd period ct P'
    rw [hu]
    refine ⟨⟨R.good, R.age, R.disj, R.fresh, by simp⟩, ?_⟩
    intro o ho o' ho' e p hp a ha hnot
    have hsurv : o ∈ survivors cfg w.objs := by
      have hIh : Inv ({ w with heap := h } : World K L D F X) := (env_inv hI (heap := h) (g := w.gcount)
        ⟨le_rfl, fun r hr => by rw [hh]; exact hr⟩).1
      have hev := ((updateCore_micros' (adv := false) cfg { w with heap := h } hIh.nodup (dets.getD [])
        period ct).inv (advance_inv hIh)).2
      rcases hev.origin o' ho' with h1 | ⟨p, hp, e', _⟩
      · have := (hI.bounded o ho).2
        have h1' : w.initCount < o'.initId := h1
        omega
      · simp only [advance, List.mem_map] at hp
        obtain ⟨p', hp', rfl⟩ := hp
        have : p' = o := World.eq_of_mem_of_key hI.nodup ((survivors_sublist cfg w.objs).subset hp') ho
          (by rw [← e, ← e']; exact (stepped_initId cfg ct p').symm)
        exact this ▸ hp'
    have hm : stepped cfg ct o ∈ (advance cfg ct { w with heap := h }).objs := by
      simp only [advance, List.mem_map]
      exact ⟨o, hsurv, rfl⟩
    obtain ⟨h1, h2⟩ := R.rel _ hm o' ho' (by rw [e]; simp)
    have hpast : (stepped cfg ct o).past = o.past := stepped_past' cfg ct o
    rcases h2 p (by rw [hpast]; exact hp) a (by rw [hh]; exact ha) with h3 | ⟨h3, _⟩
    · rw [h1] at h3
      simpa using h3
    · exact absurd h3 hnot
  unfold update at key ⊢
  simp only [updateCoreNone_eq] at key ⊢
  cases ct with
  | none =>
    cases dets with
    | none => exact key w.heap [] (fun _ => rfl) rfl rfl
    | some l => exact key w.heap l (fun _ => rfl) rfl rfl
  | some c =>
    cases dets with
    | none =>
      refine ⟨⟨P.good, P.age, P.disj, fun _ _ _ _ h => h, by simp⟩, ?_⟩
      intro o ho o' ho' e p hp a ha hnot
      have : o' = o := World.eq_of_mem_of_key hI.nodup ho' ho e
      subst this
      exact absurd hp hnot
    | some l => exact key _ l (fun q => transform_age c l w.heap q) rfl rfl

/-- Histories in which this tracker is only given detections of its own (`Mine`), none of which is
still among its past detections and none twice in a call; nobody else sets their ages. -/
abbrev FreshReaches (cfg : Cfg K L D F X) (Mine : Ref → Prop) : World K L D F X → World K L D F X → Prop :=
  Reaches cfg (fun h h' => ∀ r, Mine r → (h' r).age = (h r).age)
    (fun dets _ _ w => (dets.getD []).Nodup ∧
      ∀ r ∈ dets.getD [], Mine r ∧ ∀ o ∈ w.objs, r ∉ o.past)

theorem freshReaches_past {cfg : Cfg K L D F X} {Mine : Ref → Prop} {w0 w : World K L D F X}
    (h0 : w0.Initial) (h : FreshReaches cfg Mine w0 w) :
    PastOk cfg.pastLen w.heap [] (fun _ => False) w.heap w.objs ∧
      ∀ o ∈ w.objs, ∀ q ∈ o.past, Mine q := by
  have hI0 := Inv.initial h0
  induction h with
  | refl =>
    rw [h0.1]
    exact ⟨⟨by simp, by simp, by simp, by simp, by simp⟩, by simp⟩
  | @call v dets period ct hr hp ih =>
    have hI := (hr.inv hI0).1
    refine ⟨(update_past cfg v hI dets hp.1 period ct ⟨ih.1.good, ih.1.age, ih.1.disj,
      fun o ho q hq hm => (hp.2 q hm).2 o ho hq, by simp⟩).1, ?_⟩
    have hQ : ObjInv cfg (dets.getD []) period ct (fun _ => True) (fun _ o => ∀ q ∈ o.past, Mine q) := by
      refine ⟨fun _ _ _ _ => trivial, fun _ _ _ _ _ _ => trivial, fun _ _ _ _ h => h,
        fun _ _ _ _ _ _ h => h, ?_, fun _ _ _ _ h => h, ?_, ?_, ?_, ?_⟩
      · intro h o _ hq
        rw [stepped_past']; exact hq
      · intro h g c o r d _ hr _ _ hq _ q hqm
        rcases hitObj_past_eq cfg h g c o r period with ⟨_, e, _⟩ | e
        · exact hq q (by rw [← e]; exact hqm)
        · rcases condAdd_mem e q hqm with h1 | ⟨rfl, _⟩
          · exact hq q h1
          · exact (hp.2 _ hr).1
      · intro h g c o r _ hr _ hq _ q hqm
        rcases hitObj_past_eq cfg h g c o r period with ⟨_, e, _⟩ | e
        · exact hq q (by rw [← e]; exact hqm)
        · rcases condAdd_mem e q hqm with h1 | ⟨rfl, _⟩
          · exact hq q h1
          · exact (hp.2 _ hr).1
      · intro h o c _ _ hq hc q hqm
        rcases condAddAll_mem _ _ _ q hqm with h1 | h1
        · exact hq q h1
        · exact hc q h1
      · intro w r _ hr q hq
        rw [newObj_past _ _ _ _ _ q hq]
        exact (hp.2 _ hr).1
    exact ((update_micros cfg v hI.nodup dets period ct).objInv hQ trivial ih.2).2
  | env heap g hr he hE ih =>
    refine ⟨?_, ih.2⟩
    have := ih.1.ages (h' := heap) (fun o ho q hq => hE q (ih.2 o ho q hq))
    exact ⟨this.good, this.age, this.disj, this.fresh, by simp⟩

end

end Norfair
