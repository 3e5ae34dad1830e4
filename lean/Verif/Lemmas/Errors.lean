import Verif.Lemmas.Inv
import Verif.Lemmas.Matching

/-! Why an `update` raises. -/

set_option linter.unusedSectionVars false

namespace Norfair

variable {K L D F X : Type}

section
variable [LinearOrder K] [Zero K] [LinearOrder D] [OrderTop D] [Zero D] [DecidableEq L]
variable {adv : Bool}

/-- the distance function of the tracker gives `v` (`none`: raises, `some none`: NaN) for a pair that it
is called with -/
def DistGives (cfg : Cfg K L D F X) (w : World K L D F X) (dets : List Ref)
    (v : Option (Option D)) : Prop :=
  match cfg.dist with
  | .scalar f => ∃ r ∈ dets, ∃ o ∈ w.objs, (w.heap r).label = o.label ∧
      f (w.heap r) (o.view w.heap) = v
  | .vectorized str f => ∃ s cs os, cs ≠ [] ∧ os ≠ [] ∧
      (∀ c ∈ cs, ∃ r ∈ dets, str (w.heap r).label = s ∧ c = (w.heap r).points.data) ∧
      (∀ b ∈ os, ∃ o ∈ w.objs, str o.label = s ∧ b = (o.estimate cfg.flt).data) ∧
      ((v = none ∧ f cs os = none) ∨
        ∃ M i j, f cs os = some M ∧ i < cs.length ∧ j < os.length ∧ v = some (M.val i j))

/-- the ReID distance function gives `v` for a pair of different objects with the same label -/
def ReidGives (cfg : Cfg K L D F X) (w : World K L D F X) (v : Option (Option D)) : Prop :=
  ∃ f, cfg.reid = some f ∧ ∃ c ∈ w.objs, ∃ o ∈ w.objs, c.label = o.label ∧
    f (c.view w.heap) (o.view w.heap) = v

/-- the reasons for an error at a moment inside `update` -/
inductive ErrCause (cfg : Cfg K L D F X) (dets : List Ref) (period : Int) (w : World K L D F X) :
    Err → Prop
  | distance : DistGives cfg w dets none → ErrCause cfg dets period w .distance
  | nan : DistGives cfg w dets (some none) → ErrCause cfg dets period w .nan
  | reidDistance : ReidGives cfg w none → ErrCause cfg dets period w .distance
  | reidNan : ReidGives cfg w (some none) → ErrCause cfg dets period w .nan
  | diverges : cfg.fill < cfg.thr → ErrCause cfg dets period w .diverges
  | reidDiverges : cfg.reid ≠ none → cfg.reidFill < cfg.reidThr → ErrCause cfg dets period w .diverges
  | hit (o r e) : w.find o.initId = some o → r ∈ dets → Compat cfg (w.heap r).label o.label →
      (hitObj cfg w.heap w.gcount w.count o r period).err = some e → ErrCause cfg dets period w e
  | merge (o c e) : w.find o.initId = some o → w.find c.initId = some c → c.initId ≠ o.initId →
      cfg.reid ≠ none → (mergeObj cfg w.heap o c).2.2 = some e → ErrCause cfg dets period w e

theorem DistGives.mono {cfg : Cfg K L D F X} {w : World K L D F X} {dets dets' : List Ref} {v}
    (h : DistGives cfg w dets v) (hs : ∀ r ∈ dets, r ∈ dets') : DistGives cfg w dets' v := by
  unfold DistGives at h ⊢
  split at h
  · rename_i f hd
    obtain ⟨r, hr, h⟩ := h
    exact ⟨r, hs r hr, h⟩
  · obtain ⟨s, cs, os, h1, h2, h3, h4⟩ := h
    refine ⟨s, cs, os, h1, h2, fun c hc => ?_, h4⟩
    obtain ⟨r, hr, h⟩ := h3 c hc
    exact ⟨r, hs r hr, h⟩

theorem mem_filter_map {α β : Type} {l : List α} {p : α → Bool} {g : α → β} {b : β}
    (h : b ∈ (l.filter p).map g) : ∃ a ∈ l, p a = true ∧ b = g a := by
  obtain ⟨a, ha, rfl⟩ := List.mem_map.mp h
  exact ⟨a, (List.mem_filter.mp ha).1, (List.mem_filter.mp ha).2, rfl⟩

theorem scalarDistances_none {C O : Type} {labC : C → L} {labO : O → L}
    {f : C → O → Option (Option D)} {objects : List O} {cands : List C} :
    scalarDistances labC labO f objects cands = none ↔
      ∃ c ∈ cands, ∃ o ∈ objects, labC c = labO o ∧ f c o = none := by
  unfold scalarDistances
  simp only
  split
  · rename_i h
    simp only [true_iff]
    simp only [List.any_eq_true] at h
    obtain ⟨c, hc, o, ho, h⟩ := h
    refine ⟨c, hc, o, ho, ?_⟩
    by_cases hl : labC c = labO o
    · simpa [hl] using h
    · simp [hl] at h
  · rename_i h
    simp only [reduceCtorEq, false_iff]
    rintro ⟨c, hc, o, ho, hl, hf⟩
    apply h
    simp only [List.any_eq_true]
    exact ⟨c, hc, o, ho, by simp [hl, hf]⟩

theorem hasNan_iff {M : Mat (Option D)} :
    M.hasNan = true ↔ ∃ i < M.rows, ∃ j < M.cols, M.val i j = none := by
  unfold Mat.hasNan
  simp only [List.any_eq_true, List.mem_range, Option.isNone_iff_eq_none]

/-- the matrix of a scalar distance contains a NaN iff the function gave NaN for a compared pair -/
theorem scalarDistances_nan {C O : Type} {labC : C → L} {labO : O → L}
    {f : C → O → Option (Option D)} {objects : List O} {cands : List C} {M : Mat (Option D)}
    (h : scalarDistances labC labO f objects cands = some M) :
    M.hasNan = true ↔ ∃ c ∈ cands, ∃ o ∈ objects, labC c = labO o ∧ f c o = some none := by
  have hno : ∀ c ∈ cands, ∀ o ∈ objects, labC c = labO o → f c o ≠ none := by
    intro c hc o ho hl hf
    rw [scalarDistances_none.mpr ⟨c, hc, o, ho, hl, hf⟩] at h
    cases h
  rw [hasNan_iff]
  unfold scalarDistances at h
  simp only at h
  split at h
  · cases h
  · cases h
    simp only
    constructor
    · rintro ⟨i, hi, j, hj, hv⟩
      rw [List.getElem?_eq_getElem hi, List.getElem?_eq_getElem hj] at hv
      simp only at hv
      refine ⟨_, List.getElem_mem hi, _, List.getElem_mem hj, ?_⟩
      by_cases hl : labC cands[i] = labO objects[j]
      · refine ⟨hl, ?_⟩
        rw [if_pos hl] at hv
        cases hf : f cands[i] objects[j] with
        | none => exact absurd hf (hno _ (List.getElem_mem hi) _ (List.getElem_mem hj) hl)
        | some v => rw [hf] at hv; simp at hv; rw [hv]
      · rw [if_neg hl] at hv; simp at hv
    · rintro ⟨c, hc, o, ho, hl, hf⟩
      obtain ⟨i, hi, rfl⟩ := List.mem_iff_getElem.mp hc
      obtain ⟨j, hj, rfl⟩ := List.mem_iff_getElem.mp ho
      refine ⟨i, hi, j, hj, ?_⟩
      rw [List.getElem?_eq_getElem hi, List.getElem?_eq_getElem hj]
      simp [hl, hf]

theorem countP_take_lt {α : Type} {p : α → Bool} {l : List α} {i : Nat} (hi : i < l.length)
    (hp : p l[i] = true) : (l.take i).countP p < l.countP p := by
  conv_rhs => rw [← List.take_append_drop i l, List.countP_append]
  rw [List.drop_eq_getElem_cons hi, List.countP_cons_of_pos hp]
  omega

theorem mem_objects {w : World K L D F X} {keys : List Nat} {o : Obj K L D F}
    (h : o ∈ w.objects keys) : o ∈ w.objs ∧ o.initId ∈ keys := by
  unfold World.objects at h
  obtain ⟨k, hk, hf⟩ := List.mem_filterMap.mp h
  exact ⟨(World.find_some hf).1, by rw [(World.find_some hf).2]; exact hk⟩

theorem detDistances_none {cfg : Cfg K L D F X} {w : World K L D F X} {keys : List Nat}
    {dets : List Ref} (h : detDistances cfg w.heap (w.objects keys) dets = none) :
    DistGives cfg w dets none := by
  unfold detDistances at h
  unfold DistGives
  split at h
  · rename_i f hd
    rw [hd]
    obtain ⟨r, hr, o, ho, hl, hf⟩ := scalarDistances_none.mp h
    exact ⟨r, hr, o, (mem_objects ho).1, hl, hf⟩
  · rename_i str f hd
    rw [hd]
    unfold vectorizedDistances at h
    simp only at h
    split at h
    · rename_i hany
      simp only [List.any_eq_true, Bool.and_eq_true, decide_eq_true_eq,
        Option.isNone_iff_eq_none] at hany
      obtain ⟨r, hr, o, ho, hl, hf⟩ := hany
      refine ⟨str (w.heap r).label, _, _, ?_, ?_, ?_, ?_, Or.inl ⟨rfl, hf⟩⟩
      rotate_left 2
      · intro c hc
        obtain ⟨q, hq, e1, e2⟩ := mem_filter_map hc
        exact ⟨q, hq, by simpa using e1, e2⟩
      · intro c hc
        obtain ⟨q, hq, e1, e2⟩ := mem_filter_map hc
        exact ⟨q, (mem_objects hq).1, by simpa using e1, e2⟩
      · simp only [ne_eq, List.map_eq_nil_iff, List.filter_eq_nil_iff, not_forall]
        exact ⟨r, hr, by simp⟩
      · simp only [ne_eq, List.map_eq_nil_iff, List.filter_eq_nil_iff, not_forall]
        exact ⟨o, ho, by simp [hl]⟩
    · cases h

theorem detDistances_nan {cfg : Cfg K L D F X} {w : World K L D F X} {keys : List Nat}
    {dets : List Ref} {M : Mat (Option D)}
    (h : detDistances cfg w.heap (w.objects keys) dets = some M) (hn : M.hasNan = true) :
    DistGives cfg w dets (some none) := by
  unfold detDistances at h
  unfold DistGives
  split at h
  · rename_i f hd
    rw [hd]
    obtain ⟨r, hr, o, ho, hl, hf⟩ := (scalarDistances_nan h).mp hn
    exact ⟨r, hr, o, (mem_objects ho).1, hl, hf⟩
  · rename_i str f hd
    rw [hd]
    obtain ⟨i, hi, j, hj, hv⟩ := hasNan_iff.mp hn
    unfold vectorizedDistances at h
    simp only at h
    split at h
    · cases h
    · cases h
      simp only at hi hj hv
      rw [List.getElem?_eq_getElem hi, List.getElem?_eq_getElem hj] at hv
      simp only at hv
      split at hv
      · rename_i hl
        split at hv
        · rename_i N hN
          refine ⟨str (w.heap dets[i]).label, _, _, ?_, ?_, ?_, ?_, Or.inr ⟨N, _, _, hN, ?_, ?_, by rw [hv]⟩⟩
          rotate_left 2
          · intro c hc
            obtain ⟨q, hq, e1, e2⟩ := mem_filter_map hc
            exact ⟨q, hq, by simpa using e1, e2⟩
          · intro c hc
            obtain ⟨q, hq, e1, e2⟩ := mem_filter_map hc
            exact ⟨q, (mem_objects hq).1, by simpa using e1, e2⟩
          rotate_left 2
          · simp only [ne_eq, List.map_eq_nil_iff, List.filter_eq_nil_iff, not_forall]
            exact ⟨_, List.getElem_mem hi, by simp⟩
          · simp only [ne_eq, List.map_eq_nil_iff, List.filter_eq_nil_iff, not_forall]
            exact ⟨_, List.getElem_mem hj, by simp [hl]⟩
          · rw [List.length_map, ← List.countP_eq_length_filter]
            exact countP_take_lt (p := fun r => decide (str (w.heap r).label = str (w.heap dets[i]).label))
              hi (by simp)
          · rw [List.length_map, ← List.countP_eq_length_filter]
            exact countP_take_lt (p := fun o : Obj K L D F =>
              decide (str o.label = str (w.heap dets[i]).label)) hj (by simp [hl])
        · cases hv
      · cases hv

theorem hitLoop_error (cfg : Cfg K L D F X) (dets0 : List Ref) (period : Int)
    (ct : Option (CoordTrans K)) (M : Mat D) (dets : List Ref) (keys : List Nat)
    (hsub : ∀ r ∈ dets, r ∈ dets0) (w0 : World K L D F X)
    (hcompat : ∀ i j r k o, dets[i]? = some r → keys[j]? = some k → w0.find k = some o →
      M.val i j < cfg.thr → Compat cfg (w0.heap r).label o.label)
    (ps : List (Nat × Nat)) (w : World K L D F X) (hk : Keeps w0 w) (out : StageOut Ref)
    (hkeys : ∀ k ∈ keys, k ∈ w0.keys) {w' e}
    (h : hitLoop cfg cfg.thr period M dets keys ps w out = (w', .error e)) :
    ∃ w1, Micros adv cfg dets0 period ct w w1 ∧ ErrCause cfg dets0 period w1 e := by
  induction ps generalizing w out with
  | nil => unfold hitLoop at h; cases h
  | cons p ps ih =>
    obtain ⟨i, j⟩ := p
    unfold hitLoop at h
    split at h
    · rename_i r k hr hkj
      split at h
      · rename_i hlt
        split at h
        · rename_i o hf
          have hid : o.initId = k := (World.find_some hf).2
          have hf' : w.find o.initId = some o := by rw [hid]; exact hf
          have hrd : r ∈ dets0 := hsub r (List.mem_of_getElem? hr)
          have hcmp : Compat cfg (w.heap r).label o.label := by
            obtain ⟨o0, ho0⟩ := World.find_isSome_of_mem (hkeys k (List.mem_of_getElem? hkj))
            obtain ⟨o1, h1, l1, _⟩ := hk.2 k o0 ho0
            rw [hf] at h1
            cases h1
            rw [hk.1 r, l1]
            exact hcompat i j r k o0 hr hkj ho0 hlt
          obtain ⟨b1, b2, b3⟩ := hitObj_basic cfg w.heap w.gcount w.count o r period
          have bh := hitObj_heap cfg w.heap w.gcount w.count o r period
          simp only at h
          split at h
          · rename_i e' he
            have : e' = e := by
              have := congrArg Prod.snd h
              simpa using this
            subst this
            exact ⟨w, .refl, .hit o r e' hf' hrd hcmp he⟩
          · rename_i he
            have hstep : Keeps w (w.after (hitObj cfg w.heap w.gcount w.count o r period).heap
                (hitObj cfg w.heap w.gcount w.count o r period).gcount
                (hitObj cfg w.heap w.gcount w.count o r period).count
                { (hitObj cfg w.heap w.gcount w.count o r period).obj with
                  lastDistance := some (M.val i j) }) :=
              Keeps.of_after hf' b1 b2 b3 bh.label
            obtain ⟨w1, h1, h2⟩ := ih _ (hk.trans hstep) _ h
            exact ⟨w1, Relation.ReflTransGen.head
              (Micro.hit w o r (M.val i j) _ hf' hrd hcmp hlt rfl he) h1, h2⟩
        · exact ih _ hk _ h
      · exact ih _ hk _ h
    · exact ih _ hk _ h

theorem stageDet_error (cfg : Cfg K L D F X) (dets0 : List Ref) (period : Int)
    (ct : Option (CoordTrans K)) (w : World K L D F X) (keys : List Nat) (dets : List Ref)
    (hsub : ∀ r ∈ dets, r ∈ dets0) (hkeys : ∀ k ∈ keys, k ∈ w.keys) {w' e}
    (h : stageDet cfg period w keys dets = (w', .error e)) :
    ∃ w1, Micros adv cfg dets0 period ct w w1 ∧ ErrCause cfg dets0 period w1 e := by
  unfold stageDet at h
  split at h
  · cases h
  · split at h
    · rename_i hM
      cases h
      exact ⟨w, .refl, .distance ((detDistances_none hM).mono hsub)⟩
    · rename_i M hM
      obtain ⟨_, _, hspec⟩ := detDistances_spec hM
      split at h
      · rename_i hn
        cases h
        exact ⟨w, .refl, .nan ((detDistances_nan hM hn).mono hsub)⟩
      · simp only at h
        have h1 : ∀ w1, w1 = (if (M.map (fun x => x.getD ⊤)).anyNonzero = true then
            setMins cfg.thr (M.map (fun x => x.getD ⊤)) 0 keys w else w) →
            Micros adv cfg dets0 period ct w w1 ∧ Keeps w w1 := by
          intro w1 e
          subst e
          split
          · exact setMins_micros cfg dets0 period ct cfg.thr (fun d h => Or.inl h) _ _ _ _
          · exact ⟨.refl, .refl _⟩
        obtain ⟨hw1, hk1⟩ := h1 _ rfl
        split at h
        · rename_i hm
          have : Err.diverges = e := by
            have := congrArg Prod.snd h
            simpa using this
          subst this
          refine ⟨_, hw1, .diverges ?_⟩
          by_contra hf
          obtain ⟨l, hl⟩ := matchDetsAndObjs_isSome cfg.thr cfg.fill hf (M.map (fun x => x.getD ⊤))
          rw [hm] at hl; cases hl
        · split at h
          · obtain ⟨w1, h2, h3⟩ := hitLoop_error (adv := adv) cfg dets0 period ct
              (M.map (fun x => x.getD ⊤)) dets keys hsub w (by
                intro i j r k o hr hkj hf hlt
                by_contra hn
                have hobj : (w.objects keys)[j]? = some o := by
                  rw [World.objects_getElem? hkeys, hkj]; exact hf
                exact Mat.getD_map_val hlt (hspec i j r o hr hobj hn))
              _ _ hk1 _ hkeys h
            exact ⟨w1, hw1.trans h2, h3⟩
          · have := congrArg Prod.snd h
            cases this

theorem mergeLoop_error (cfg : Cfg K L D F X) (dets0 : List Ref) (period : Int)
    (ct : Option (CoordTrans K)) (M : Mat D) (cands keys : List Nat) (hreid : cfg.reid ≠ none)
    (hdisj : ∀ c ∈ cands, ∀ k ∈ keys, c ≠ k) (lab : Nat → Option L)
    (hcompat : ∀ i j c k, cands[i]? = some c → keys[j]? = some k →
      M.val i j < cfg.reidThr → lab c = lab k)
    (ps : List (Nat × Nat)) (w : World K L D F X)
    (hlab : ∀ k o, w.find k = some o → k ∈ cands ∨ k ∈ keys → lab k = some o.label)
    (out : StageOut Nat) {w' e}
    (h : mergeLoop cfg cfg.reidThr M cands keys ps w out = (w', .error e)) :
    ∃ w1, Micros adv cfg dets0 period ct w w1 ∧ ErrCause cfg dets0 period w1 e := by
  induction ps generalizing w out with
  | nil => unfold mergeLoop at h; cases h
  | cons p ps ih =>
    obtain ⟨i, j⟩ := p
    unfold mergeLoop at h
    split at h
    · rename_i c k hc hkj
      have hc' := List.mem_of_getElem? hc
      have hk' := List.mem_of_getElem? hkj
      split at h
      · rename_i hlt
        split at h
        · rename_i oc o hfc hf
          obtain ⟨b1, b2, b3, b4⟩ := mergeObj_basic cfg w.heap o oc
          have hid : o.initId = k := (World.find_some hf).2
          have hidc : oc.initId = c := (World.find_some hfc).2
          have hf' : w.find o.initId = some o := by rw [hid]; exact hf
          have hfc' : w.find oc.initId = some oc := by rw [hidc]; exact hfc
          have hne : oc.initId ≠ o.initId := by rw [hid, hidc]; exact hdisj c hc' k hk'
          have hl : oc.label = o.label := by
            have e1 := hlab c oc hfc (Or.inl hc')
            have e2 := hlab k o hf (Or.inr hk')
            rw [hcompat i j c k hc hkj hlt, e2] at e1
            exact (Option.some.inj e1).symm
          simp only at h
          split at h
          · rename_i e' he
            have : e' = e := by
              have := congrArg Prod.snd h
              simpa using this
            subst this
            exact ⟨w, .refl, .merge o oc e' hf' hfc' hne hreid he⟩
          · rename_i he
            have hlab' : ∀ k' p, (((w.after (mergeObj cfg w.heap o oc).1 w.gcount w.count
                (mergeObj cfg w.heap o oc).2.1).remove c).find k') = some p →
                k' ∈ cands ∨ k' ∈ keys → lab k' = some p.label := by
              intro k' p hp hk''
              by_cases hkc : k' = c
              · exfalso
                subst hkc
                have := World.find_some hp
                simp only [World.remove, List.mem_filter] at this
                have h3 := this.1.2
                rw [this.2] at h3
                simp at h3
              · rw [World.find_remove _ hkc] at hp
                by_cases hko : k' = o.initId
                · have hself : (w.after (mergeObj cfg w.heap o oc).1 w.gcount w.count
                      (mergeObj cfg w.heap o oc).2.1).find o.initId
                      = some (mergeObj cfg w.heap o oc).2.1 := by
                    unfold World.after
                    rw [← b1]
                    apply World.find_put_self
                    rw [b1]
                    exact World.mem_keys_of_find (w := w) hf'
                  rw [hko, hself] at hp
                  cases hp
                  rw [hko, b2]
                  exact hlab o.initId o hf' (by rw [hid]; exact Or.inr hk')
                · unfold World.after at hp
                  rw [World.find_put_ne _ (by rw [b1]; exact hko)] at hp
                  exact hlab k' p hp hk''
            obtain ⟨w1, h1, h2⟩ := ih _ hlab' _ h
            refine ⟨w1, Relation.ReflTransGen.head (Micro.merge w o oc _ _ hf' hfc' hne hl hreid
              (Prod.ext rfl (Prod.ext rfl he))) ?_, h2⟩
            rw [hidc]
            exact h1
        · exact ih _ hlab _ h
      · exact ih _ hlab _ h
    · exact ih _ hlab _ h

theorem stageReid_error (cfg : Cfg K L D F X) (dets0 : List Ref) (period : Int)
    (ct : Option (CoordTrans K)) (f : ObjView K L D F X → ObjView K L D F X → Option (Option D))
    (hreid : cfg.reid = some f) (w : World K L D F X) (keys cands : List Nat)
    (hkeys : ∀ k ∈ keys, k ∈ w.keys) (hcands : ∀ k ∈ cands, k ∈ w.keys)
    (hdisj : ∀ c ∈ cands, ∀ k ∈ keys, c ≠ k) {w' e}
    (h : stageReid cfg f w keys cands = (w', .error e)) :
    ∃ w1, Micros adv cfg dets0 period ct w w1 ∧ ErrCause cfg dets0 period w1 e := by
  have hr : cfg.reid ≠ none := by rw [hreid]; simp
  unfold stageReid at h
  split at h
  · cases h
  · split at h
    · rename_i hM
      cases h
      unfold reidDistances at hM
      obtain ⟨c, hc, o, ho, hl, hf⟩ := scalarDistances_none.mp hM
      exact ⟨w, .refl, .reidDistance ⟨f, hreid, c, (mem_objects hc).1, o, (mem_objects ho).1, hl, hf⟩⟩
    · rename_i M hM
      obtain ⟨_, _, hspec⟩ := reidDistances_spec hM
      split at h
      · rename_i hn
        cases h
        unfold reidDistances at hM
        obtain ⟨c, hc, o, ho, hl, hf⟩ := (scalarDistances_nan hM).mp hn
        exact ⟨w, .refl, .reidNan ⟨f, hreid, c, (mem_objects hc).1, o, (mem_objects ho).1, hl, hf⟩⟩
      · simp only at h
        have h1 : ∀ w1, w1 = (if (M.map (fun x => x.getD ⊤)).anyNonzero = true then
            setMins cfg.reidThr (M.map (fun x => x.getD ⊤)) 0 keys w else w) →
            Micros adv cfg dets0 period ct w w1 ∧ Keeps w w1 := by
          intro w1 e
          subst e
          split
          · exact setMins_micros cfg dets0 period ct cfg.reidThr (fun d h => Or.inr ⟨hr, h⟩) _ _ _ _
          · exact ⟨.refl, .refl _⟩
        obtain ⟨hw1, hk1⟩ := h1 _ rfl
        split at h
        · rename_i hm
          have : Err.diverges = e := by
            have := congrArg Prod.snd h
            simpa using this
          subst this
          refine ⟨_, hw1, .reidDiverges hr ?_⟩
          by_contra hf
          obtain ⟨l, hl⟩ := matchDetsAndObjs_isSome cfg.reidThr cfg.reidFill hf
            (M.map (fun x => x.getD ⊤))
          rw [hm] at hl; cases hl
        · split at h
          · obtain ⟨w1, h2, h3⟩ := mergeLoop_error (adv := adv) cfg dets0 period ct
              (M.map (fun x => x.getD ⊤)) cands keys hr hdisj (fun k => (w.find k).map (·.label)) (by
                intro i j c k hc hkj hlt
                obtain ⟨oc, hoc⟩ := World.find_isSome_of_mem (hcands c (List.mem_of_getElem? hc))
                obtain ⟨o, ho⟩ := World.find_isSome_of_mem (hkeys k (List.mem_of_getElem? hkj))
                simp only [hoc, ho, Option.map_some]
                congr 1
                by_contra hne
                have e1 : (w.objects cands)[i]? = some oc := by
                  rw [World.objects_getElem? hcands, hc]; exact hoc
                have e2 : (w.objects keys)[j]? = some o := by
                  rw [World.objects_getElem? hkeys, hkj]; exact ho
                exact Mat.getD_map_val hlt (hspec i j oc o e1 e2 hne)) _ _ (by
                intro k o ho hk
                have hmem : k ∈ w.keys := hk.elim (hcands k) (hkeys k)
                obtain ⟨o0, h0⟩ := World.find_isSome_of_mem hmem
                obtain ⟨o1, h1, l1, _⟩ := hk1.2 k o0 h0
                rw [ho] at h1
                cases h1
                simp [h0, l1]) _ h
            exact ⟨w1, hw1.trans h2, h3⟩
          · have := congrArg Prod.snd h
            cases this

/-- an error in `updateCore` has a cause at some moment after the objects were advanced -/
theorem updateCore_error (cfg : Cfg K L D F X) (w : World K L D F X) (hn : w.keys.Nodup)
    (dets : List Ref) (period : Int) (ct : Option (CoordTrans K)) {w' e}
    (h : updateCore cfg w dets period ct = (w', .error e)) :
    ∃ w1, Micros adv cfg dets period ct (advance cfg ct w) w1 ∧ ErrCause cfg dets period w1 e := by
  unfold updateCore at h
  simp only at h
  set w0 := advance cfg ct w with hw0
  have hk0 : w0.keys = (survivors cfg w.objs).map (·.initId) := advance_keys cfg ct w
  have hkeys1 : ∀ k ∈ w0.keysWhere (aliveKeys cfg w.objs) (fun o => !o.isInit), k ∈ w0.keys := by
    intro k hk; rw [hk0]; exact aliveKeys_sub _ _ (World.mem_keysWhere.mp hk).1
  obtain ⟨m1, kp1⟩ := stageDet_micros (adv := adv) cfg dets period ct w0
    (w0.keysWhere (aliveKeys cfg w.objs) (fun o => !o.isInit)) dets (fun _ h => h) hkeys1
  split at h
  · rename_i w1 e' hs
    cases h
    exact stageDet_error cfg dets period ct w0 _ dets (fun _ h => h) hkeys1 hs
  · rename_i w1 out1 hs
    rw [hs] at m1 kp1
    simp only at m1 kp1
    obtain ⟨sub1, _, sub1'⟩ := stageDet_out_sub cfg period w0 _ dets hs
    have hkeys2 : ∀ k ∈ w1.keysWhere (aliveKeys cfg w.objs) (fun o => o.isInit), k ∈ w1.keys := by
      intro k hk
      obtain ⟨_, o, ho, _⟩ := World.mem_keysWhere.mp hk
      exact World.mem_keys_of_find ho
    obtain ⟨m2, kp2⟩ := stageDet_micros (adv := adv) cfg dets period ct w1
      (w1.keysWhere (aliveKeys cfg w.objs) (fun o => o.isInit)) out1.unmatchedC sub1 hkeys2
    split at h
    · rename_i w2 e' hs2
      cases h
      obtain ⟨w3, h3, h4⟩ := stageDet_error (adv := adv) cfg dets period ct w1 _ _ sub1 hkeys2 hs2
      exact ⟨w3, m1.trans h3, h4⟩
    · rename_i w2 out2 hs2
      rw [hs2] at m2 kp2
      simp only at m2 kp2
      obtain ⟨sub2, sub2', _⟩ := stageDet_out_sub cfg period w1 _ out1.unmatchedC hs2
      split at h
      · rename_i w3 e' hs3
        cases h
        unfold reidStage at hs3
        split at hs3
        · cases hs3
        · rename_i f hf
          obtain ⟨w4, h4, h5⟩ := stageReid_error (adv := adv) cfg dets period ct f hf w2 _ _ (by
            intro k hk
            have : k ∈ w0.keys := by
              rcases List.mem_append.mp hk with hk | hk
              · exact hkeys1 k (sub1' k hk)
              · rw [hk0]; exact deadKeys_sub _ _ hk
            exact kp2.mem_keys (kp1.mem_keys this)) (by
            intro k hk
            exact kp2.mem_keys (hkeys2 k (sub2' k hk))) (by
            intro c hc k hk e
            subst e
            obtain ⟨ha, o, ho, hi⟩ := World.mem_keysWhere.mp (sub2' c hc)
            rcases List.mem_append.mp hk with hk | hk
            · obtain ⟨_, p, hp, hpi⟩ := World.mem_keysWhere.mp (sub1' c hk)
              obtain ⟨p', hp', _, hii⟩ := kp1.2 c p hp
              rw [ho] at hp'
              cases hp'
              have := hii (by simpa using hpi)
              rw [this] at hi
              cases hi
            · exact alive_dead_disjoint cfg w.objs hn ha hk) hs3
          exact ⟨w4, (m1.trans m2).trans h4, h5⟩
      · cases h

/-- Why `update` raises. -/
theorem update_error (cfg : Cfg K L D F X) (w : World K L D F X) (hn : w.keys.Nodup)
    (dets : Option (List Ref)) (period : Int) (ct : Option (CoordTrans K)) {w' e}
    (h : update cfg w dets period ct = (w', .error e)) :
    (e = .typeError ∧ ct ≠ none ∧ dets = none ∧ w' = w) ∨
    ∃ w1, Micros true cfg (dets.getD []) period ct w w1 ∧ ErrCause cfg (dets.getD []) period w1 e := by
  have core : ∀ (w0 : World K L D F X) l ct, w0.keys.Nodup →
      updateCore cfg w0 l period ct = (w', .error e) →
      ∃ w1, Micros true cfg l period ct w0 w1 ∧ ErrCause cfg l period w1 e := by
    intro w0 l ct hn0 h0
    obtain ⟨w1, h1, h2⟩ := updateCore_error (adv := true) cfg w0 hn0 l period ct h0
    exact ⟨w1, Relation.ReflTransGen.head (Micro.advance w0 rfl) h1, h2⟩
  unfold update at h
  simp only [updateCoreNone_eq] at h
  split at h
  · cases h; left; exact ⟨rfl, by simp, rfl, rfl⟩
  · rename_i c l
    right
    obtain ⟨w1, h1, h2⟩ := core { w with heap := l.foldl (transformDet c) w.heap } l _ hn h
    exact ⟨w1, (foldl_transform_micros cfg l period c l (fun _ h => h) w).trans h1, h2⟩
  · right; exact core w [] none hn h
  · right; exact core w _ none hn h

end

end Norfair
