import Verif.Lemmas.Stages

/-! Which pairs a stage matches, and with which distances. -/

set_option linter.unusedSectionVars false

namespace Norfair

open Norfair.Spec

variable {K L D F X : Type}

section
variable [LinearOrder K] [Zero K] [LinearOrder D] [OrderTop D] [Zero D] [DecidableEq L]

theorem hitObj_ok_fields {cfg : Cfg K L D F X} {h : Ref → Det K L X} {g c : Nat} {o : Obj K L D F}
    {r : Ref} {period : Int} (he : (hitObj cfg h g c o r period).err = none) :
    (hitObj cfg h g c o r period).obj.lastDet = r ∧
    (hitObj cfg h g c o r period).obj.curMin = o.curMin := by
  cases hc : condAdd cfg.pastLen o.age h o.past r with
  | none => rw [hitObj_none hc] at he; cases he
  | some p =>
    rw [hitObj_some (heap' := p.1) (past' := p.2) hc]
    obtain ⟨ph, fl, on, e⟩ := hitSensors_obj cfg (p.1 r) period (hitCounters cfg g c o r period p.2)
    simp only [e]
    unfold hitCounters
    split <;> exact ⟨rfl, rfl⟩

/-- every pair of the list leaves its detection and its distance on the object -/
theorem hitLoop_dist (cfg : Cfg K L D F X) (period : Int) (M : Mat D) (dets : List Ref)
    (keys : List Nat) (hkn : keys.Nodup) (heap0 : Ref → Det K L X) (lab : Nat → Option L)
    (hcompat : ∀ i j r k l, dets[i]? = some r → keys[j]? = some k → lab k = some l →
      M.val i j < cfg.thr → Compat cfg (heap0 r).label l)
    (ps : List (Nat × Nat)) (hps : ∀ p ∈ ps, p.1 < dets.length ∧ p.2 < keys.length ∧
      M.val p.1 p.2 < cfg.thr) (hnd : (ps.map Prod.snd).Nodup)
    (w : World K L D F X) (hh : AgesOnly heap0 w.heap)
    (hlab : ∀ k o, w.find k = some o → lab k = some o.label) (hkeys : ∀ k ∈ keys, k ∈ w.keys)
    (out : StageOut Ref) {w' out'}
    (h : hitLoop cfg cfg.thr period M dets keys ps w out = (w', .ok out')) :
    ∀ p ∈ ps, ∃ r k o o', dets[p.1]? = some r ∧ keys[p.2]? = some k ∧ w.find k = some o ∧
      w'.find k = some o' ∧ o'.lastDet = r ∧ o'.lastDistance = some (M.val p.1 p.2) ∧
      o'.curMin = o.curMin := by
  induction ps generalizing w out with
  | nil => intro p hp; cases hp
  | cons q ps ih =>
    obtain ⟨i, j⟩ := q
    obtain ⟨hi, hj, hlt⟩ := hps (i, j) (by simp)
    simp only at hi hj hlt
    have hr : dets[i]? = some dets[i] := List.getElem?_eq_getElem hi
    have hk : keys[j]? = some keys[j] := List.getElem?_eq_getElem hj
    obtain ⟨o, hf⟩ := World.find_isSome_of_mem (hkeys keys[j] (List.getElem_mem hj))
    have hid : o.initId = keys[j] := (World.find_some hf).2
    have hf' : w.find o.initId = some o := by rw [hid]; exact hf
    unfold hitLoop at h
    simp only [hr, hk, hlt, if_true, hf] at h
    split at h
    · cases h
    · rename_i he
      rw [List.map_cons, List.nodup_cons] at hnd
      obtain ⟨b1, b2, b3⟩ := hitObj_basic cfg w.heap w.gcount w.count o dets[i] period
      have bh := hitObj_heap cfg w.heap w.gcount w.count o dets[i] period
      set o1 := { (hitObj cfg w.heap w.gcount w.count o dets[i] period).obj with
        lastDistance := some (M.val i j) } with ho1
      set w1 := w.after (hitObj cfg w.heap w.gcount w.count o dets[i] period).heap
          (hitObj cfg w.heap w.gcount w.count o dets[i] period).gcount
          (hitObj cfg w.heap w.gcount w.count o dets[i] period).count o1 with hw1def
      have h' : hitLoop cfg cfg.thr period M dets keys ps w1
            { out with matchedO := out.matchedO ++ [keys[j]] } = (w', .ok out') := h
      have hk1 : w1.keys = w.keys := by rw [hw1def, World.after_keys]
      have hheap1 : w1.heap = (hitObj cfg w.heap w.gcount w.count o dets[i] period).heap := rfl
      have hself : w1.find keys[j] = some o1 := by
        rw [← hid]; exact find_after_self hf' b1
      have hother : ∀ k, k ≠ keys[j] → w1.find k = w.find k := by
        intro k hk'
        apply find_after_ne
        rw [show o1.initId = o.initId from b1, hid]
        exact hk'
      have hlab1 : ∀ k p, w1.find k = some p → lab k = some p.label := by
        intro k p hp
        by_cases hkj : k = keys[j]
        · subst hkj
          rw [hself] at hp
          cases hp
          rw [hlab _ _ hf]
          exact congrArg some b2.symm
        · rw [hother k hkj] at hp
          exact hlab k p hp
      have hh1 : AgesOnly heap0 w1.heap := by rw [hheap1]; exact hh.trans bh
      have hrest := ih (fun p hp => hps p (by simp [hp])) hnd.2 w1 hh1 hlab1
        (by rw [hk1]; exact hkeys) _ h'
      obtain ⟨m, hm1, hm2, hout, hkk, hii, hag, hfate⟩ := hitLoop_ok cfg period M dets keys hkn heap0 lab
        hcompat ps (fun p hp => hps p (by simp [hp])) hnd.2 w1 hh1 hlab1 (by rw [hk1]; exact hkeys) _ h'
      have hnotm : keys[j] ∉ m.map Prod.snd := by
        intro hmem
        obtain ⟨j', hj', hj''⟩ := hm2.mem hmem
        have : j = j' := (List.getElem?_inj hj hkn).mp (hk.trans hj''.symm)
        exact hnd.1 (this ▸ hj')
      intro p hp
      rcases List.mem_cons.mp hp with rfl | hp
      · obtain ⟨o', ho', hcase⟩ := hfate keys[j] o1 hself
        rcases hcase with ⟨_, rfl⟩ | ⟨r, hr', _⟩
        · exact ⟨_, _, o, o1, hr, hk, hf, ho', (hitObj_ok_fields he).1, rfl, (hitObj_ok_fields he).2⟩
        · exact absurd (List.mem_map_of_mem (f := Prod.snd) hr') hnotm
      · obtain ⟨r, k, o2, o', h1, h2, h3, h4, h5, h6, h7⟩ := hrest p hp
        have hkj : k ≠ keys[j] := by
          intro e
          subst e
          have hlt2 := (hps p (by simp [hp])).2.1
          have : j = p.2 := (List.getElem?_inj hj hkn).mp (hk.trans h2.symm)
          exact hnd.1 (List.mem_map.mpr ⟨p, hp, this.symm⟩)
        exact ⟨r, k, o2, o', h1, h2, by rw [← hother k hkj]; exact h3, h4, h5, h6, h7⟩

/-- lines 301-306, exactly -/
theorem setMins_exact (thr : D) (M : Mat D) (ks : List Nat) (hn : ks.Nodup) (w : World K L D F X) :
    ∀ (j0 : Nat) (j k : Nat) (o : Obj K L D F), ks[j]? = some k → w.find k = some o →
      (setMins thr M j0 ks w).find k =
        some { o with curMin := if M.colMin (j0 + j) < thr then some (M.colMin (j0 + j)) else none } := by
  induction ks generalizing w with
  | nil => intro j0 j k o h; simp at h
  | cons k0 ks ih =>
    intro j0 j k o hj ho
    rw [List.nodup_cons] at hn
    unfold setMins
    simp only
    cases j with
    | zero =>
      simp only [List.getElem?_cons_zero, Option.some.injEq] at hj
      subst hj
      simp only [ho]
      set o1 : Obj K L D F :=
        { o with curMin := if M.colMin j0 < thr then some (M.colMin j0) else none } with ho1
      have hself : (w.put o1).find o1.initId = some o1 := World.find_put_self (by
        show o.initId ∈ w.keys
        rw [(World.find_some ho).2]; exact World.mem_keys_of_find ho)
      have hk : o1.initId = k0 := (World.find_some ho).2
      rw [hk] at hself
      obtain ⟨v, hv, hv'⟩ := (setMins_spec thr M ks (j0 + 1) (w.put o1)).2.2.2.2.2 k0 o1 hself
      have := hv' hn.1
      subst this
      rw [hv]
      simp [ho1]
    | succ j =>
      simp only [List.getElem?_cons_succ] at hj
      have hne : k ≠ k0 := by
        rintro rfl
        exact hn.1 (List.mem_of_getElem? hj)
      have hfind : (match w.find k0 with
          | some o => w.put { o with curMin := if M.colMin j0 < thr then some (M.colMin j0) else none }
          | none => w).find k = some o := by
        split
        · rename_i p hp
          rw [World.find_put_ne w (by
            show k ≠ p.initId
            rw [(World.find_some hp).2]; exact hne)]
          exact ho
        · exact ho
      have := ih hn.2 _ (j0 + 1) j k o hj hfind
      rw [show j0 + 1 + j = j0 + (j + 1) by omega] at this
      exact this

/-- `d` are the distances between the detections and the objects of the given identities -/
def DistancesOk (cfg : Cfg K L D F X) (heap : Ref → Det K L X) (objs : List (Obj K L D F)) (dets : List Ref)
    (d : Nat → Nat → D) : Prop :=
  ∃ M, detDistances cfg heap objs dets = some M ∧
    ∀ i j, i < dets.length → j < objs.length → M.val i j = some (d i j)

/-- exact description of the matching in a stage with detections -/
structure StageExact (cfg : Cfg K L D F X) (w w' : World K L D F X) (keys : List Nat)
    (dets : List Ref) (out : StageOut Ref) (d : Nat → Nat → D) (pairs : List (Nat × Nat)) : Prop where
  dist : dets ≠ [] → DistancesOk cfg w.heap (w.objects keys) dets d
  greedy : GreedyMatching dets.length keys.length d cfg.thr pairs
  unmatchedC : out.unmatchedC = unmatchedOf dets (pairs.map Prod.fst)
  matchedO : Picks keys (pairs.map Prod.snd) out.matchedO
  unmatchedO : out.unmatchedO = unmatchedOf keys (pairs.map Prod.snd)
  hits : ∀ p ∈ pairs, ∃ r k o', dets[p.1]? = some r ∧ keys[p.2]? = some k ∧
      w'.find k = some o' ∧ o'.lastDet = r ∧ o'.lastDistance = some (d p.1 p.2)
  mins : ∀ j k o o', keys[j]? = some k → w.find k = some o → w'.find k = some o' →
    (dets ≠ [] ∧ (∃ i < dets.length, ∃ j < keys.length, d i j ≠ 0) →
      ∃ i < dets.length, (∀ i' < dets.length, d i j ≤ d i' j) ∧
        o'.curMin = if d i j < cfg.thr then some (d i j) else none) ∧
    (¬ (dets ≠ [] ∧ (∃ i < dets.length, ∃ j < keys.length, d i j ≠ 0)) → o'.curMin = o.curMin)

theorem anyNonzero_iff {M : Mat D} : M.anyNonzero = true ↔ ∃ i < M.rows, ∃ j < M.cols, M.val i j ≠ 0 := by
  unfold Mat.anyNonzero
  simp only [List.any_eq_true, List.mem_range, decide_eq_true_eq]

theorem stageDet_exact (cfg : Cfg K L D F X) (period : Int) (w : World K L D F X) (keys : List Nat)
    (hkn : keys.Nodup) (dets : List Ref) (hkeys : ∀ k ∈ keys, k ∈ w.keys) {w' out}
    (h : stageDet cfg period w keys dets = (w', .ok out)) :
    ∃ d pairs, StageExact cfg w w' keys dets out d pairs := by
  unfold stageDet at h
  split at h
  · rename_i hd
    cases h
    have : dets = [] := List.length_eq_zero_iff.mp hd
    subst this
    refine ⟨fun _ _ => ⊤, [], fun h => absurd rfl h, ⟨by simp, by simp, by simp, by simp, by simp, by simp⟩,
      by simp [unmatchedOf], .nil, (unmatchedOf_nil _).symm, by simp, ?_⟩
    intro j k o o' _ ho ho'
    rw [ho] at ho'
    cases ho'
    exact ⟨fun hx => absurd rfl hx.1, fun _ => rfl⟩
  · rename_i hdl
    have hdne : dets ≠ [] := fun e => hdl (by rw [e]; rfl)
    split at h
    · cases h
    · rename_i M hM
      obtain ⟨hrows, hcols, hspec⟩ := detDistances_spec hM
      have hcols' := hcols
      rw [World.objects_length hkeys] at hcols
      split at h
      · cases h
      · rename_i hnan
        simp only at h
        set M' : Mat D := M.map (fun x => x.getD ⊤) with hM'
        have hr' : M'.rows = dets.length := hrows
        have hc' : M'.cols = keys.length := hcols
        set w1 := (if M'.anyNonzero = true then setMins cfg.thr M' 0 keys w else w) with hw1
        have hmins : w1.keys = w.keys ∧ w1.heap = w.heap ∧
            ∀ k o, w.find k = some o → ∃ v, w1.find k = some { o with curMin := v } := by
          rw [hw1]
          split
          · obtain ⟨h1, h2, h3, _, _, h6⟩ := setMins_spec cfg.thr M' keys 0 w
            exact ⟨h1, h3, fun k o ho => (h6 k o ho).imp fun v hv => hv.1⟩
          · exact ⟨rfl, rfl, fun k o ho => ⟨o.curMin, ho⟩⟩
        obtain ⟨hk1, hh1, hf1⟩ := hmins
        have hcm : ∀ j k o o1, keys[j]? = some k → w.find k = some o → w1.find k = some o1 →
            (dets ≠ [] ∧ (∃ i < dets.length, ∃ j < keys.length, M'.val i j ≠ 0) →
              ∃ i < dets.length, (∀ i' < dets.length, M'.val i j ≤ M'.val i' j) ∧
                o1.curMin = if M'.val i j < cfg.thr then some (M'.val i j) else none) ∧
            (¬ (dets ≠ [] ∧ (∃ i < dets.length, ∃ j < keys.length, M'.val i j ≠ 0)) →
              o1.curMin = o.curMin) := by
          intro j k o o1 hj ho ho1
          have hiff := anyNonzero_iff (M := M')
          rw [hr', hc'] at hiff
          constructor
          · rintro ⟨_, hx⟩
            rw [hw1, if_pos (hiff.mpr hx), setMins_exact cfg.thr M' keys hkn w 0 j k o hj ho] at ho1
            cases ho1
            have hpos : 0 < M'.rows := by
              rw [hr']; exact List.length_pos_iff.mpr hdne
            obtain ⟨a1, a2⟩ := argmin_spec (fun i => M'.val i j) M'.rows hpos
            refine ⟨argmin (fun i => M'.val i j) M'.rows, by rw [← hr']; exact a1, ?_, ?_⟩
            · intro i' hi'
              rcases a2 i' (by rw [hr']; exact hi') with hlt | ⟨he, _⟩
              · exact hlt.le
              · exact he.le
            · simp only [Nat.zero_add]; rfl
          · intro hx
            have hna : ¬ M'.anyNonzero = true := fun hy => hx ⟨hdne, hiff.mp hy⟩
            rw [hw1, if_neg hna, ho] at ho1
            cases ho1
            rfl
        have hdist : dets ≠ [] → DistancesOk cfg w.heap (w.objects keys) dets M'.val := by
          intro _
          refine ⟨M, hM, fun i j hi hj => ?_⟩
          cases hv : M.val i j with
          | none =>
            exact absurd (hasNan_iff.mpr ⟨i, by rw [hrows]; exact hi, j, by rw [hcols']; exact hj, hv⟩) hnan
          | some x => rw [hM']; simp [Mat.map, hv]
        split at h
        · exact absurd (congrArg Prod.snd h) (by simp)
        · rename_i pairs hp
          have hg := matchReturns_greedy ⟨_, hp⟩
          have hg' : GreedyMatching dets.length keys.length M'.val cfg.thr pairs := by
            rw [← hr', ← hc']; exact hg
          split at h
          · have a1 : ∀ i j r k l, dets[i]? = some r → keys[j]? = some k →
                (w.find k).map (·.label) = some l → M'.val i j < cfg.thr →
                Compat cfg (w.heap r).label l := by
              intro i j r k l hr hkj hl hlt
              obtain ⟨o, ho⟩ := World.find_isSome_of_mem (hkeys k (List.mem_of_getElem? hkj))
              simp only [ho, Option.map_some, Option.some.injEq] at hl
              subst hl
              by_contra hn
              have hobj : (w.objects keys)[j]? = some o := by
                rw [World.objects_getElem? hkeys, hkj]; exact ho
              exact Mat.getD_map_val hlt (hspec i j r o hr hobj hn)
            have a2 : ∀ p ∈ pairs, p.1 < dets.length ∧ p.2 < keys.length ∧ M'.val p.1 p.2 < cfg.thr := by
              intro p hp'
              have := hg'.inRange p hp'
              exact ⟨this.1, this.2, hg.below p hp'⟩
            have a3 : ∀ k o, w1.find k = some o → (w.find k).map (·.label) = some o.label := by
              intro k o ho
              have hk : k ∈ w.keys := by rw [← hk1]; exact World.mem_keys_of_find ho
              obtain ⟨o0, h0⟩ := World.find_isSome_of_mem hk
              obtain ⟨v, hv⟩ := hf1 k o0 h0
              rw [ho] at hv
              cases hv
              simp [h0]
            have a4 : AgesOnly w.heap w1.heap := by rw [hh1]; exact .refl _
            have a5 : ∀ k ∈ keys, k ∈ w1.keys := by rw [hk1]; exact hkeys
            obtain ⟨m, hm1, hm2, hout, hkk, hii, hag, hfate⟩ := hitLoop_ok cfg period M' dets keys hkn
              w.heap (fun k => (w.find k).map (·.label)) a1 pairs a2 hg.colsNodup w1 a4 a3 a5 _ h
            have hdd := hitLoop_dist cfg period M' dets keys hkn
              w.heap (fun k => (w.find k).map (·.label)) a1 pairs a2 hg.colsNodup w1 a4 a3 a5 _ h
            refine ⟨M'.val, pairs, hdist, hg', by rw [hout], by rw [hout]; simpa using hm2, by rw [hout], ?_, ?_⟩
            · intro p hp'
              obtain ⟨r, k, o, o', b1, b2, _, b3, b4, b5, _⟩ := hdd p hp'
              exact ⟨r, k, o', b1, b2, b3, b4, b5⟩
            · intro j k o o' hj ho ho'
              obtain ⟨v, hv⟩ := hf1 k o ho
              obtain ⟨o2, ho2, hcase⟩ := hfate k _ hv
              rw [ho'] at ho2
              cases ho2
              have hcur : o'.curMin = v := by
                rcases hcase with ⟨_, rfl⟩ | ⟨r, hr, ho⟩
                · rfl
                · obtain ⟨a, b, c, e, _, he, _, _, rfl⟩ := ho
                  exact (hitObj_ok_fields he).2
              have := hcm j k o _ hj ho hv
              simpa only [hcur] using this
          · have e1 : w1 = w' := congrArg Prod.fst h
            have e2 := congrArg Prod.snd h
            simp only [Except.ok.injEq] at e2
            subst e2
            have hpn : pairs = [] := by
              rename_i hnl
              exact List.length_eq_zero_iff.mp (by omega)
            subst hpn
            refine ⟨M'.val, [], hdist, hg', ?_, .nil, ?_, by simp, ?_⟩
            · exact (unmatchedOf_nil _).symm
            · exact (unmatchedOf_nil _).symm
            · rw [← e1]; exact hcm

end

end Norfair
