import Verif.Lemmas.StageExact
import Verif.Spec.Rounds

/-! The two rounds of matching in `update`, seen from outside. -/

set_option linter.unusedSectionVars false

namespace Norfair

open Norfair.Spec

variable {K L D F X : Type}

section
variable [LinearOrder K] [Zero K] [LinearOrder D] [OrderTop D] [Zero D] [DecidableEq L]

theorem leftOver_eq {α : Type} (l : List α) (idx : List Nat) : unmatchedOf l idx = leftOver l idx := by
  unfold unmatchedOf leftOver
  induction l using List.reverseRecOn with
  | nil => rfl
  | append_singleton l a ih =>
    rw [List.zipIdx_append, List.filter_append, List.map_append, List.length_append,
      List.length_singleton, List.range_succ, List.filterMap_append, ih]
    congr 1
    · apply List.filterMap_congr
      intro i hi
      rw [List.getElem?_append_left (List.mem_range.mp hi)]
    · simp only [List.zipIdx_singleton, zero_add, List.filterMap_cons, List.filterMap_nil]
      by_cases h : l.length ∈ idx <;> simp [h]

/-- the objects compared in a round: alive, and initializing or not -/
def roundObjs (cfg : Cfg K L D F X) (w : World K L D F X) (init : Bool) : List (Obj K L D F) :=
  w.objs.filter (fun o => decide (CanMatch cfg.reidMax o ∧ o.isInit = init))

theorem canMatch_iff {cfg : Cfg K L D F X} {objs : List (Obj K L D F)} {o : Obj K L D F} (ho : o ∈ objs) :
    CanMatch cfg.reidMax o ↔ o ∈ survivors cfg objs ∧ 0 ≤ o.hitCounter := by
  rw [mem_survivors]
  unfold CanMatch
  constructor
  · rintro ⟨h0, h⟩
    refine ⟨⟨ho, ?_⟩, h0⟩
    by_cases hr : cfg.reidMax = none
    · exact Or.inl ⟨hr, h0⟩
    · refine Or.inr ⟨hr, ?_⟩
      cases hh : o.reidHitCounter with
      | none => exact Or.inl rfl
      | some r => exact Or.inr ⟨r, rfl, (h.resolve_left hr) r hh⟩
  · rintro ⟨⟨_, h⟩, h0⟩
    refine ⟨h0, ?_⟩
    rcases h with ⟨h, _⟩ | ⟨_, h | ⟨r, h, hr⟩⟩
    · exact Or.inl h
    · exact Or.inr (fun r hr => by rw [h] at hr; cases hr)
    · exact Or.inr (fun r' hr' => by rw [h] at hr'; cases hr'; exact hr)

/-- `alive_objects` in order -/
theorem aliveKeys_eq (cfg : Cfg K L D F X) (objs : List (Obj K L D F)) :
    aliveKeys cfg objs = (objs.filter (fun o => decide (CanMatch cfg.reidMax o))).map (·.initId) := by
  unfold aliveKeys survivors
  cases hr : cfg.reidMax with
  | none =>
    simp only
    congr 1
    apply List.filter_congr
    intro o _
    simp [Obj.hcPos, CanMatch]
  | some n =>
    simp only
    rw [List.filter_filter]
    congr 1
    apply List.filter_congr
    intro o _
    cases h : o.reidHitCounter <;> simp [Obj.hcPos, Obj.reidPos, CanMatch, h]

theorem keysWhere_eq {w v : World K L D F X} {objs : List (Obj K L D F)} {g : Obj K L D F → Obj K L D F}
    (p : Obj K L D F → Bool) (hp : ∀ o, p (g o) = p o)
    (hf : ∀ o ∈ objs, p o = true → v.find o.initId = some (g o))
    (hf' : ∀ o ∈ objs, p o = false → ∀ o', v.find o.initId = some o' → p o' = false) :
    v.keysWhere (objs.map (·.initId)) p = (objs.filter p).map (·.initId) ∧
    v.objects (v.keysWhere (objs.map (·.initId)) p) = (objs.filter p).map g := by
  have h1 : v.keysWhere (objs.map (·.initId)) p = (objs.filter p).map (·.initId) := by
    unfold World.keysWhere
    rw [List.filter_map]
    congr 1
    apply List.filter_congr
    intro o ho
    simp only [Function.comp]
    cases hpo : p o with
    | true => rw [hf o ho hpo]; simp only; rw [hp]; exact hpo
    | false =>
      cases hv : v.find o.initId with
      | none => rfl
      | some o' => exact hf' o ho hpo o' hv
  refine ⟨h1, ?_⟩
  rw [h1]
  unfold World.objects
  rw [List.filterMap_map]
  have : ∀ o ∈ objs.filter p, (v.find ∘ fun x => x.initId) o = some (g o) := by
    intro o ho
    rw [List.mem_filter] at ho
    exact hf o ho.1 ho.2
  rw [List.filterMap_congr this]
  exact congrFun List.filterMap_eq_map' _

theorem newObj_lastDet (cfg : Cfg K L D F X) (w : World K L D F X) (r : Ref) (period : Int)
    (ct : Option (CoordTrans K)) : (newObj cfg w r period ct).lastDet = r := by
  obtain ⟨g, hg⟩ := newObj_fields cfg w r period ct
  rw [hg]
  rfl

/-- Everything about the two rounds of matching of a successful `update`. -/
structure TwoRounds (cfg : Cfg K L D F X) (w : World K L D F X) (dets : List Ref) (period : Int)
    (ct : Option (CoordTrans K)) (w' : World K L D F X) (w1 w2 w3 : World K L D F X)
    (out1 out2 : StageOut Ref) (ks1 ks2 ks3 : List Nat) (m3 : List (Nat × Nat))
    (d1 d2 : Nat → Nat → D) (p1 p2 : List (Nat × Nat)) : Prop where
  S : Stages cfg w dets period ct w1 w2 w3 w' out1 out2 ks2 ks3 m3
  E1 : StageExact cfg (advance cfg ct w) w1 ks1 dets out1 d1 p1
  E2 : StageExact cfg w1 w2 ks2 out1.unmatchedC out2 d2 p2
  ks1def : ks1 = stage1Keys cfg ct w
  ks1eq : ks1 = (roundObjs cfg w false).map (·.initId)
  ks2eq : ks2 = (roundObjs cfg w true).map (·.initId)
  objs1 : (advance cfg ct w).objects ks1 = (roundObjs cfg w false).map (stepped cfg ct)
  objs2 : w1.objects ks2 = (roundObjs cfg w true).map (stepped cfg ct)
  same2 : ∀ k ∈ ks1, ∀ o, w1.find k = some o → w2.find k = some o
  find1 : ∀ o ∈ roundObjs cfg w false, (advance cfg ct w).find o.initId = some (stepped cfg ct o)
  find2 : ∀ o ∈ roundObjs cfg w true, w1.find o.initId = some (stepped cfg ct o)
  /-- objects that take part in no merge are left alone after the second round -/
  final : ∀ k ∈ w.keys, k ∉ ks3 → ∀ o' ∈ w'.objs, o'.initId = k → w2.find k = some o'
  matchedOut : ∀ k ∈ ks1, k ∈ ks3 ↔ k ∈ out1.unmatchedO
  notKs3 : ∀ k ∈ ks2, k ∉ ks3
  stays1 : ∀ k ∈ ks1, ∃ o' ∈ w'.objs, o'.initId = k
  stays2 : cfg.reid = none → ∀ k ∈ ks2, ∃ o' ∈ w'.objs, o'.initId = k
  news : ∃ news, w'.objs = w3.objs ++ news ∧ news.map (·.lastDet) = out2.unmatchedC ∧
    (∀ o ∈ news, w.initCount < o.initId) ∧ ∀ o ∈ w3.objs, o.initId ∈ w.keys

theorem updateCore_rounds {cfg : Cfg K L D F X} {w : World K L D F X} (hI : Inv w)
    {dets : List Ref} {period : Int} {ct : Option (CoordTrans K)} {w' : World K L D F X}
    {act : List (Obj K L D F)} (h : updateCore cfg w dets period ct = (w', .ok act)) :
    ∃ w1 w2 w3 out1 out2 ks1 ks2 ks3 m3 d1 d2 p1 p2,
      TwoRounds cfg w dets period ct w' w1 w2 w3 out1 out2 ks1 ks2 ks3 m3 d1 d2 p1 p2 := by
  obtain ⟨w1, w2, w3, out1, out2, ks2, ks3, m3, S⟩ := updateCore_stages hI.nodup h
  have hk1 : ∀ k ∈ stage1Keys cfg ct w, k ∈ (advance cfg ct w).keys := by
    intro k hk
    obtain ⟨o, ho, rfl, _⟩ := (S.mem1 k).mp hk
    exact World.mem_keys_of_find (find_advance hI.nodup ho)
  have hk2 : ∀ k ∈ ks2, k ∈ w1.keys := by
    intro k hk
    rw [S.keys1]
    obtain ⟨o, ho, rfl, _⟩ := (S.mem2 k).mp hk
    exact World.mem_keys_of_find (find_advance hI.nodup ho)
  obtain ⟨m1, S1, n1, sub1, perm1, mo1, un1, uo1, same1⟩ :=
    stageDet_ok cfg period _ _ S.ks1Nodup _ hk1 S.s1
  obtain ⟨m2, S2, n2, sub2, perm2, mo2, un2, uo2, same2⟩ :=
    stageDet_ok cfg period w1 ks2 S.ks2Nodup out1.unmatchedC hk2 S.s2
  obtain ⟨d1, p1, E1⟩ := stageDet_exact cfg period _ _ S.ks1Nodup _ hk1 S.s1
  obtain ⟨d2, p2, E2⟩ := stageDet_exact cfg period w1 ks2 S.ks2Nodup out1.unmatchedC hk2 S.s2
  have hround : ∀ b o, o ∈ roundObjs cfg w b → o ∈ survivors cfg w.objs ∧ 0 ≤ o.hitCounter ∧ o.isInit = b := by
    intro b o ho
    unfold roundObjs at ho
    rw [List.mem_filter, decide_eq_true_eq] at ho
    obtain ⟨h1, h2⟩ := (canMatch_iff ho.1).mp ho.2.1
    exact ⟨h1, h2, ho.2.2⟩
  have hsurv : ∀ o ∈ w.objs.filter (fun o => decide (CanMatch cfg.reidMax o)), o ∈ survivors cfg w.objs := by
    intro o ho
    rw [List.mem_filter, decide_eq_true_eq] at ho
    exact ((canMatch_iff ho.1).mp ho.2).1
  have hff : ∀ (p : Obj K L D F → Bool) b, (∀ o : Obj K L D F, p o = decide (o.isInit = b)) →
      (w.objs.filter (fun o => decide (CanMatch cfg.reidMax o))).filter p = roundObjs cfg w b := by
    intro p b hpb
    unfold roundObjs
    rw [List.filter_filter]
    apply List.filter_congr
    intro o _
    rw [hpb, Bool.decide_and, Bool.and_comm]
  have hobjs1 := keysWhere_eq (w := w) (v := advance cfg ct w)
    (objs := w.objs.filter (fun o => decide (CanMatch cfg.reidMax o))) (g := stepped cfg ct)
    (fun o => !o.isInit) (by intro o; simp)
    (fun o ho _ => find_advance hI.nodup (hsurv o ho))
    (fun o ho hp o' ho' => by
      rw [find_advance hI.nodup (hsurv o ho)] at ho'
      cases ho'
      simpa using hp)
  rw [hff (fun o => !o.isInit) false (by intro o; cases o.isInit <;> rfl), ← aliveKeys_eq] at hobjs1
  have hks1 : stage1Keys cfg ct w = (roundObjs cfg w false).map (·.initId) := hobjs1.1
  have hfind2 : ∀ o ∈ survivors cfg w.objs, o.isInit = true → w1.find o.initId = some (stepped cfg ct o) := by
    intro o ho hi
    apply same1 _ _ (find_advance hI.nodup ho)
    intro hx
    obtain ⟨p, hp, e, _, hpi⟩ := (S.mem1 _).mp hx
    have : p = o := World.eq_of_mem_of_key hI.nodup ((survivors_sublist cfg w.objs).subset hp)
      ((survivors_sublist cfg w.objs).subset ho) e
    subst this
    rw [hi] at hpi
    cases hpi
  have hobjs2 := keysWhere_eq (w := w) (v := w1)
    (objs := w.objs.filter (fun o => decide (CanMatch cfg.reidMax o))) (g := stepped cfg ct)
    (fun o => o.isInit) (by intro o; simp)
    (fun o ho hp => hfind2 o (hsurv o ho) hp)
    (fun o ho hp o' ho' => by
      obtain ⟨q, hq, hcase⟩ := S1.fate _ _ (find_advance hI.nodup (hsurv o ho))
      rw [ho'] at hq
      cases hq
      rcases hcase with ⟨_, v, rfl⟩ | ⟨r, v, _, hh⟩
      · simpa using hp
      · obtain ⟨hp', g, c, d, _, _, _, _, rfl⟩ := hh
        exact (hitObj_basic cfg hp' g c _ r period).2.2 (by simpa using hp))
  rw [hff (fun o => o.isInit) true (by intro o; cases o.isInit <;> rfl), ← aliveKeys_eq, ← S.ks2eq] at hobjs2
  have hdead : ∀ k ∈ stage1Keys cfg ct w, k ∉ deadKeys cfg w.objs := by
    intro k hk hd
    obtain ⟨o, ho, rfl, h1, h2⟩ := mem_deadKeys (w := w) hd
    obtain ⟨p, hp, e, h0, _⟩ := (S.mem1 _).mp hk
    have : p = o := World.eq_of_mem_of_key hI.nodup ((survivors_sublist cfg w.objs).subset hp)
      ((survivors_sublist cfg w.objs).subset ho) e
    subst this
    unfold Obj.hcPos at h1
    simp only [decide_eq_false_iff_not] at h1
    exact h1 h0
  have hstay : ∀ k ∈ w3.keys, ∃ o' ∈ w'.objs, o'.initId = k := by
    intro k hk
    obtain ⟨news, f1, _⟩ := foldl_create cfg period ct out2.unmatchedC w3
    obtain ⟨o, ho, rfl⟩ := List.mem_map.mp hk
    exact ⟨o, by rw [S.s4, f1]; exact List.mem_append.mpr (Or.inl ho), rfl⟩
  refine ⟨w1, w2, w3, out1, out2, _, ks2, ks3, m3, d1, d2, p1, p2, S, E1, E2, rfl, hks1, hobjs2.1,
    hobjs1.2, hobjs2.2, ?_, ?_, ?_, ?_, ?_, ?_, ?_, ?_, ?_⟩
  · intro k hk o ho
    exact same2 k o ho (fun hx => S.disj12 k hk hx)
  · exact fun o ho => find_advance hI.nodup (hround _ o ho).1
  · exact fun o ho => hfind2 o (hround _ o ho).1 (hround _ o ho).2.2
  · intro k hk hk3 o' ho' hid
    obtain ⟨news, f1, _, _, _, f5, _⟩ := foldl_create cfg period ct out2.unmatchedC w3
    rw [S.s4, f1] at ho'
    have hn3 : w3.keys.Nodup := by
      rw [S.reid.left]
      exact (by rw [S.keys2]; exact S.nodup : w2.keys.Nodup).filter _
    rcases List.mem_append.mp ho' with ho' | ho'
    · have hk3' : k ∈ w3.keys := hid ▸ List.mem_map_of_mem ho'
      rw [S.reid.left, List.mem_filter, decide_eq_true_eq] at hk3'
      obtain ⟨o2, ho2⟩ := World.find_isSome_of_mem hk3'.1
      obtain ⟨o3, ho3, hcase⟩ := S.reid.fate k o2 ho2 hk3'.2
      have : o3 = o' := World.eq_of_mem_of_key hn3 (World.find_some ho3).1 ho'
        ((World.find_some ho3).2.trans hid.symm)
      subst this
      rcases hcase with ⟨_, v, rfl, hv⟩ | ⟨c, _, _, hc, _⟩
      · rw [hv hk3]
        exact ho2
      · exact absurd (S.reid.keysSub k (List.mem_map_of_mem (f := Prod.snd) hc)) hk3
    · have : o'.initId ∈ news.map (·.initId) := List.mem_map_of_mem ho'
      rw [f5] at this
      obtain ⟨i, _, hi⟩ := List.mem_map.mp this
      rw [S.init3] at hi
      obtain ⟨o, ho, rfl⟩ := List.mem_map.mp hk
      have := (hI.bounded o ho).2
      omega
  · intro k hk
    rw [S.ks3eq, List.mem_append]
    exact ⟨fun h => h.resolve_right (hdead k hk), Or.inl⟩
  · intro k hk hk3
    rw [S.ks3eq] at hk3
    rcases List.mem_append.mp hk3 with hk3 | hk3
    · exact S.disj12 k ((uo1 k).mp hk3).1 hk
    · obtain ⟨o, ho, rfl, h1, h2⟩ := mem_deadKeys (w := w) hk3
      obtain ⟨p, hp, e, h0, _⟩ := (S.mem2 _).mp hk
      have : p = o := World.eq_of_mem_of_key hI.nodup ((survivors_sublist cfg w.objs).subset hp)
        ((survivors_sublist cfg w.objs).subset ho) e
      subst this
      unfold Obj.hcPos at h1
      simp only [decide_eq_false_iff_not] at h1
      exact h1 h0
  · intro k hk
    apply hstay
    rw [S.reid.left, List.mem_filter, decide_eq_true_eq]
    refine ⟨by rw [S.keys2]; exact hk1 k hk, fun hx => S.disj12 k hk (S.candsSub k (S.reid.candsSub k hx))⟩
  · intro hr k hk
    apply hstay
    rw [S.reid.left, List.mem_filter, decide_eq_true_eq, S.reid.noreid hr]
    exact ⟨by rw [S2.keys]; exact hk2 k hk, by simp⟩
  · obtain ⟨news, f1, _, _, _, f5, f6⟩ := foldl_create cfg period ct out2.unmatchedC w3
    refine ⟨news, by rw [S.s4]; exact f1, ?_, ?_, ?_⟩
    · clear f1 f5
      revert f6
      generalize out2.unmatchedC = rs
      intro f6
      induction f6 with
      | nil => rfl
      | @cons r o rs os h1 _ ih =>
        obtain ⟨wi, rfl, _⟩ := h1
        rw [List.map_cons, ih]
        congr 1
        exact (newObj_lastDet cfg wi r period ct)
    · intro o ho
      have : o.initId ∈ news.map (·.initId) := List.mem_map_of_mem ho
      rw [f5] at this
      obtain ⟨i, _, hi⟩ := List.mem_map.mp this
      rw [S.init3] at hi
      omega
    · intro o ho
      have h3 : o.initId ∈ w3.keys := List.mem_map_of_mem ho
      rw [S.reid.left, List.mem_filter, S.keys2, advance_keys] at h3
      exact ((survivors_sublist cfg w.objs).map (·.initId)).subset h3.1

theorem update_rounds {cfg : Cfg K L D F X} {w w' : World K L D F X} (hI : Inv w)
    {dets : Option (List Ref)} {period : Int} {ct : Option (CoordTrans K)} {act : List (Obj K L D F)}
    (h : update cfg w dets period ct = (w', .ok act)) :
    ∃ w1 w2 w3 out1 out2 ks1 ks2 ks3 m3 d1 d2 p1 p2,
      TwoRounds cfg { w with heap := startHeap w dets ct } (dets.getD []) period ct w' w1 w2 w3 out1 out2
        ks1 ks2 ks3 m3 d1 d2 p1 p2 :=
  updateCore_rounds (w := { w with heap := startHeap w dets ct }) ⟨hI.1, hI.2, hI.3, hI.4, hI.5, hI.6, hI.7, hI.8⟩ (update_core h)

/-- the entries of a scalar distance matrix -/
theorem distancesOk_scalar {cfg : Cfg K L D F X} {f} (hf : cfg.dist = .scalar f) {heap : Ref → Det K L X}
    {objs : List (Obj K L D F)} {dets : List Ref} {d : Nat → Nat → D}
    (h : DistancesOk cfg heap objs dets d) {i j : Nat} {r : Ref} {o : Obj K L D F}
    (hi : dets[i]? = some r) (hj : objs[j]? = some o) :
    ScalarDist f (heap r) ⟨o, heap o.lastDet, o.past.map heap⟩ (d i j) := by
  obtain ⟨M, hM, hd⟩ := h
  have hval := hd i j (List.getElem?_eq_some_iff.mp hi).1 (List.getElem?_eq_some_iff.mp hj).1
  unfold detDistances at hM
  rw [hf] at hM
  simp only [scalarDistances] at hM
  split at hM
  · cases hM
  · rename_i hany
    cases hM
    simp only [hi, hj] at hval
    unfold ScalarDist
    by_cases hl : (heap r).label = o.label
    · left
      refine ⟨hl, ?_⟩
      simp only [hl, if_true] at hval
      cases hfv : f (heap r) (o.view heap) with
      | none =>
        exfalso
        apply hany
        rw [List.any_eq_true]
        refine ⟨r, List.mem_of_getElem? hi, ?_⟩
        rw [List.any_eq_true]
        refine ⟨o, List.mem_of_getElem? hj, ?_⟩
        simp [hl, hfv]
      | some x =>
        rw [hfv] at hval
        simp only [Option.getD_some] at hval
        rw [hval] at hfv
        exact hfv
    · right
      refine ⟨hl, ?_⟩
      simp only [hl, if_false, Option.getD_some, Option.some.injEq] at hval
      exact hval.symm

end

end Norfair
