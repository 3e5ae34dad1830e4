import Verif.Lemmas.Frames
import Verif.Props.TrackerCounters
import Mathlib.Data.Finset.Card
import Mathlib.Data.Finset.Lattice.Lemmas

/-! C84: a tracker needs a bounded amount of memory. -/

set_option linter.unusedSectionVars false

namespace Norfair.Props

open Norfair Norfair.Spec Norfair.Toy

variable {K L D F X : Type}

/-- for how many further calls the object stays in the tracker, if it gets no detection -/
def life (cfg : Cfg K L D F X) (o : Obj K L D F) : Int :=
  match cfg.reidMax with
  | none => o.hitCounter + 1
  | some R =>
    match o.reidHitCounter with
    | none => max o.hitCounter 0 + R + 2
    | some r => r + 1

section
variable [LinearOrder K] [Zero K] [LinearOrder D] [OrderTop D] [Zero D] [DecidableEq L]

/-- the largest possible `life` -/
def lifeMax (cfg : Cfg K L D F X) (pmax : Int) : Int :=
  max cfg.hitCounterMax (2 * pmax) + 1 + (match cfg.reidMax with
    | none => 0
    | some R => R + 1)

/-- the objects that stay for at least `v` calls -/
def staying (cfg : Cfg K L D F X) (w : World K L D F X) (v : Int) : List (Obj K L D F) :=
  w.objs.filter fun o => decide (v ≤ life cfg o)

structure Bounded (cfg : Cfg K L D F X) (m : Nat) (pmax : Int) (w : World K L D F X) : Prop where
  objs : ∀ o ∈ w.objs, 0 ≤ life cfg o ∧ life cfg o ≤ lifeMax cfg pmax ∧ 0 ≤ o.initialPeriod ∧
    o.initialPeriod ≤ pmax
  count : ∀ j : Nat, (staying cfg w (lifeMax cfg pmax - j)).length ≤ m * (j + 1)

theorem life_none {cfg : Cfg K L D F X} (h : cfg.reidMax = none) (o : Obj K L D F) :
    life cfg o = o.hitCounter + 1 := by unfold life; rw [h]

theorem life_some {cfg : Cfg K L D F X} {R : Int} (h : cfg.reidMax = some R) (o : Obj K L D F) :
    life cfg o = match o.reidHitCounter with
      | none => max o.hitCounter 0 + R + 2
      | some r => r + 1 := by unfold life; rw [h]

theorem life_curMin (cfg : Cfg K L D F X) (o : Obj K L D F) (v : Option D) :
    life cfg { o with curMin := v } = life cfg o := rfl

theorem life_stepped (cfg : Cfg K L D F X) (ct : Option (CoordTrans K)) (o : Obj K L D F) :
    life cfg (stepped cfg ct o) = life cfg o - 1 := by
  cases hr : cfg.reidMax with
  | none => rw [life_none hr, life_none hr, stepped_hitCounter]; omega
  | some R =>
    rw [life_some hr, life_some hr, stepped_hitCounter, stepped_reidHitCounter, hr]
    cases hq : o.reidHitCounter with
    | some r => simp
    | none =>
      by_cases h : o.hitCounter ≤ 0
      · simp only [h, if_true]; omega
      · simp only [h, if_false]; omega

theorem mem_survivors {cfg : Cfg K L D F X} {o : Obj K L D F} {objs : List (Obj K L D F)}
    (hR : ∀ R, cfg.reidMax = some R → 0 ≤ R)
    (h : o ∈ survivors cfg objs) : o ∈ objs ∧ 1 ≤ life cfg o := by
  refine ⟨(survivors_sublist cfg objs).subset h, ?_⟩
  unfold survivors at h
  cases hr : cfg.reidMax with
  | none =>
    rw [hr] at h
    have := (List.mem_filter.mp h).2
    simp only [Obj.hcPos, decide_eq_true_eq] at this
    rw [life_none hr]; omega
  | some R =>
    rw [hr] at h
    have h2 := (List.mem_filter.mp h).2
    have := hR R hr
    rw [life_some hr]
    unfold Obj.reidPos at h2
    cases hq : o.reidHitCounter with
    | none => simp only; omega
    | some r => rw [hq] at h2; simp only [decide_eq_true_eq] at h2; simp only; omega

/-- the life of an object that was matched -/
theorem life_hit {cfg : Cfg K L D F X} {period ct heap r} {o o' : Obj K L D F} {pmax : Int}
    (hR : ∀ R, cfg.reidMax = some R → 0 ≤ R) (hm : 0 ≤ cfg.hitCounterMax) (hp : 0 ≤ period)
    (hl : life cfg o ≤ lifeMax cfg pmax)
    (h1 : 1 ≤ life cfg o) (h : HitFate cfg period ct heap r o o') :
    0 ≤ life cfg o' ∧ life cfg o' ≤ lifeMax cfg pmax := by
  have f := h.fields
  unfold lifeMax at hl ⊢
  cases hr : cfg.reidMax with
  | none =>
    rw [life_none hr, f.hitCounter]
    rw [life_none hr] at h1
    simp only
    omega
  | some R =>
    have := hR R hr
    rw [life_some hr, f.hitCounter, f.reidHitCounter, hr]
    rw [life_some hr] at h1 hl
    rw [hr] at hl
    cases hq : o.reidHitCounter with
    | some r => rw [hq] at h1 hl; simp only at h1 hl ⊢; omega
    | none =>
      by_cases h : o.hitCounter ≤ 0
      · simp only [h, if_true]; omega
      · simp only [h, if_false]; omega

theorem life_merge {cfg : Cfg K L D F X} {ct heap} {oc o o' : Obj K L D F} {pmax : Int}
    (hR : ∀ R, cfg.reidMax = some R → 0 ≤ R) (h0 : 0 ≤ o.initialPeriod) (h1 : o.initialPeriod ≤ pmax)
    (h : MergeFate cfg ct heap oc o o') : 0 ≤ life cfg o' ∧ life cfg o' ≤ lifeMax cfg pmax := by
  have f := h.fields
  unfold lifeMax
  cases hr : cfg.reidMax with
  | none => rw [life_none hr, f.hitCounter]; simp only; omega
  | some R =>
    have := hR R hr
    rw [life_some hr, f.hitCounter, f.reidHitCounter]
    simp only
    omega

theorem life_new {cfg : Cfg K L D F X} {wi : World K L D F X} {r period ct} {pmax : Int}
    (hR : ∀ R, cfg.reidMax = some R → 0 ≤ R) (h0 : 0 ≤ period) (h1 : period ≤ pmax) :
    (0 ≤ life cfg (newObj cfg wi r period ct) ∧ life cfg (newObj cfg wi r period ct) ≤ lifeMax cfg pmax) ∧
    (newObj cfg wi r period ct).initialPeriod = period := by
  obtain ⟨g, hg⟩ := newObj_fields cfg wi r period ct
  rw [hg]
  refine ⟨?_, rfl⟩
  unfold lifeMax
  cases hr : cfg.reidMax with
  | none =>
    rw [life_none hr]
    show 0 ≤ period + 1 ∧ period + 1 ≤ _
    simp only
    omega
  | some R =>
    have := hR R hr
    rw [life_some hr]
    show 0 ≤ max period 0 + R + 2 ∧ max period 0 + R + 2 ≤ _
    simp only
    omega

theorem Bounded.call {cfg : Cfg K L D F X} {m : Nat} {pmax : Int} {w w' : World K L D F X}
    (hR : ∀ R, cfg.reidMax = some R → 0 ≤ R) (hm : 0 ≤ cfg.hitCounterMax)
    (h : Bounded cfg m pmax w) (hI : Inv w) (hn' : w'.keys.Nodup)
    {dets : Option (List Ref)} {period : Int} {ct : Option (CoordTrans K)} {act : List (Obj K L D F)}
    (hd : (dets.getD []).length ≤ m) (hp0 : 0 ≤ period) (hp1 : period ≤ pmax)
    (hu : update cfg w dets period ct = (w', .ok act)) : Bounded cfg m pmax w' := by
  obtain ⟨_, _, hits, merges, news, S⟩ := update_ok hI.nodup hu
  have hobjs : ∀ o ∈ w'.objs, 0 ≤ life cfg o ∧ life cfg o ≤ lifeMax cfg pmax ∧ 0 ≤ o.initialPeriod ∧
      o.initialPeriod ≤ pmax := by
    intro o' ho'
    rcases S.mem_cases hn' ho' with ⟨o, ho, _, _, hc⟩ | ⟨r, _, _, wi, rfl, _⟩
    · obtain ⟨hmem, hl⟩ := mem_survivors hR ho
      obtain ⟨_, b2, b3, b4⟩ := h.objs o hmem
      rcases hc with ⟨_, _, v, rfl⟩ | ⟨r, _, hf⟩ | ⟨r, oc, oc', hoc, _, _, hf, hmf⟩
      · rw [life_curMin, life_stepped]
        refine ⟨by omega, by omega, ?_, ?_⟩
        · show 0 ≤ (stepped cfg ct o).initialPeriod
          rw [stepped_initialPeriod]; exact b3
        · show (stepped cfg ct o).initialPeriod ≤ pmax
          rw [stepped_initialPeriod]; exact b4
      · obtain ⟨a1, a2⟩ := life_hit (pmax := pmax) hR hm hp0 b2 hl hf
        rw [hf.fields.initialPeriod]
        exact ⟨a1, a2, b3, b4⟩
      · obtain ⟨a1, a2⟩ := life_merge (pmax := pmax) hR b3 b4 hmf
        rw [hmf.fields.initialPeriod]
        exact ⟨a1, a2, b3, b4⟩
    · obtain ⟨⟨a1, a2⟩, e⟩ := life_new (cfg := cfg) (wi := wi) (r := r) (ct := ct) hR hp0 hp1
      rw [e]
      exact ⟨a1, a2, hp0, hp1⟩
  refine ⟨hobjs, ?_⟩
  -- one call
  have hstep : ∀ v : Int, (staying cfg w' v).length ≤ m + (staying cfg w (v + 1)).length := by
    intro v
    classical
    set A := ((staying cfg w' v).map (·.initId)).toFinset with hA
    set B := ((staying cfg w (v + 1)).map (·.initId)).toFinset with hB
    set C := (merges.map Prod.fst).toFinset with hC
    set H := (hits.map Prod.snd).toFinset with hH
    set T := (merges.map Prod.snd).toFinset with hT
    set N := ((List.range news.length).map (fun i => w.initCount + 1 + i)).toFinset with hN
    have cA : A.card = (staying cfg w' v).length := by
      rw [hA, List.toFinset_card_of_nodup, List.length_map]
      exact ((List.filter_sublist (l := w'.objs)).map (fun o : Obj K L D F => o.initId)).nodup hn'
    have cB : B.card ≤ (staying cfg w (v + 1)).length :=
      (List.toFinset_card_le _).trans (by rw [List.length_map])
    have cC : C.card = merges.length := by
      rw [hC, List.toFinset_card_of_nodup S.candsNodup, List.length_map]
    have cH : H.card = hits.length := by
      rw [hH, List.toFinset_card_of_nodup S.hitsNodup, List.length_map]
    have cT : T.card ≤ merges.length := (List.toFinset_card_le _).trans (by rw [List.length_map])
    have cN : N.card ≤ news.length := (List.toFinset_card_le _).trans (by simp)
    have hCH : C ⊆ H := by
      intro c hc
      rw [hC, List.mem_toFinset] at hc
      rw [hH, List.mem_toFinset]
      exact S.candsHit c hc
    have hlen : hits.length + news.length = (dets.getD []).length := by
      have := S.perm.length_eq
      simpa using this
    have hsub : A ⊆ ((H \ C) ∪ T ∪ N) ∪ B := by
      intro k hk
      rw [hA, List.mem_toFinset] at hk
      obtain ⟨o', ho', rfl⟩ := List.mem_map.mp hk
      obtain ⟨ho', hv⟩ := List.mem_filter.mp ho'
      have hv : v ≤ life cfg o' := by simpa using hv
      simp only [Finset.mem_union, Finset.mem_sdiff, hH, hC, hT, hN, hB, List.mem_toFinset]
      rcases S.mem_cases hn' ho' with ⟨o, ho, e, hnc, hc⟩ | ⟨r, _, hlt, wi, _, _⟩
      · rw [← e]
        rcases hc with ⟨_, _, u, rfl⟩ | ⟨r, hr, _⟩ | ⟨r, oc, oc', _, hr, _⟩
        · right
          rw [life_curMin, life_stepped] at hv
          exact List.mem_map_of_mem (f := fun o : Obj K L D F => o.initId)
            (List.mem_filter.mpr ⟨(mem_survivors hR ho).1, by simp; omega⟩)
        · exact Or.inl (Or.inl (Or.inl ⟨List.mem_map_of_mem (f := Prod.snd) hr, hnc⟩))
        · exact Or.inl (Or.inl (Or.inr (List.mem_map_of_mem (f := Prod.snd) hr)))
      · have hk : o'.initId ∈ w'.keys := List.mem_map_of_mem ho'
        rw [S.keys, List.mem_append] at hk
        rcases hk with hk | hk
        · obtain ⟨o, ho, e⟩ := List.mem_map.mp (List.mem_filter.mp hk).1
          have := (hI.bounded o (mem_survivors hR ho).1).2
          simp only at hlt
          omega
        · exact Or.inl (Or.inr hk)
    have h1 := Finset.card_le_card hsub
    have h2 := Finset.card_union_le ((H \ C) ∪ T ∪ N) B
    have h3 := Finset.card_union_le ((H \ C) ∪ T) N
    have h4 := Finset.card_union_le (H \ C) T
    have h5 := Finset.card_sdiff_of_subset hCH
    have h6 := Finset.card_le_card hCH
    omega
  intro j
  cases j with
  | zero =>
    have := hstep (lifeMax cfg pmax - (0 : Nat))
    have hz : staying cfg w (lifeMax cfg pmax - (0 : Nat) + 1) = [] := by
      unfold staying
      rw [List.filter_eq_nil_iff]
      intro o ho
      have := (h.objs o ho).2.1
      simp only [decide_eq_true_eq]
      push_cast
      omega
    rw [hz] at this
    simpa using this
  | succ j =>
    have h1 := hstep (lifeMax cfg pmax - ((j + 1 : Nat) : Int))
    have h2 := h.count j
    have e : lifeMax cfg pmax - ((j + 1 : Nat) : Int) + 1 = lifeMax cfg pmax - (j : Int) := by push_cast; omega
    rw [e] at h1
    calc _ ≤ _ := h1
      _ ≤ m + m * (j + 1) := by omega
      _ = m * (j + 1 + 1) := by ring

/-- **C84** A tracker never holds more objects than `m * (max hit_counter_max (2 * pmax) + 2)`, where `m` is the
largest number of detections of a call and `pmax` the largest period, however long it runs. With
`reid_hit_counter_max = R` the bound is `m * (max hit_counter_max (2 * pmax) + R + 3)`. -/
theorem C84_bounded {cfg : Cfg K L D F X} (hR : ∀ R, cfg.reidMax = some R → 0 ≤ R)
    (hm : 0 ≤ cfg.hitCounterMax) {m : Nat} {pmax : Int} {w0 w : World K L D F X}
    {fs : List (Frame K L D F X)} (h0 : w0.Initial) (h : Trace cfg w0 fs w)
    (hfs : ∀ f ∈ fs, Succeeds f ∧ (given f).length ≤ m ∧ 0 ≤ f.period ∧ f.period ≤ pmax) :
    (w.objs.length : Int) ≤ m * (max cfg.hitCounterMax (2 * pmax) + 2 + (match cfg.reidMax with
      | none => 0
      | some R => R + 1)) := by
  have key : Bounded cfg m pmax w := by
    induction h with
    | nil =>
      refine ⟨by rw [h0.1]; simp, fun j => ?_⟩
      unfold staying
      rw [h0.1]
      simp
    | env heap g _ he ih =>
      have := ih hfs
      exact ⟨this.objs, this.count⟩
    | @call fs w1 dets period ct ht ih =>
      have hb := ih (fun f hf => hfs f (List.mem_append_left _ hf))
      obtain ⟨⟨act, ha⟩, a1, a2, a3⟩ := hfs _ (List.mem_append_right _ (List.mem_singleton.mpr rfl))
      have hw : Reachable cfg w1 := ⟨w0, h0, ht.reaches⟩
      exact hb.call hR hm hw.inv (hw.update dets period ct).inv.nodup a1 a2 a3 (Prod.ext rfl ha)
  have hmax : 0 ≤ lifeMax cfg pmax := by
    unfold lifeMax
    cases hr : cfg.reidMax with
    | none => simp only; omega
    | some R => have := hR R hr; simp only; omega
  have h1 := key.count (lifeMax cfg pmax).toNat
  have e : lifeMax cfg pmax - ((lifeMax cfg pmax).toNat : Int) = 0 := by omega
  rw [e] at h1
  have h2 : staying cfg w 0 = w.objs := by
    unfold staying
    rw [List.filter_eq_self]
    intro o ho
    simpa using (key.objs o ho).1
  rw [h2] at h1
  have h3 : (w.objs.length : Int) ≤ m * ((lifeMax cfg pmax).toNat + 1) := by exact_mod_cast h1
  have e2 : ((lifeMax cfg pmax).toNat : Int) = lifeMax cfg pmax := by omega
  rw [e2] at h3
  refine h3.trans (le_of_eq ?_)
  congr 1
  unfold lifeMax
  split <;> omega

end

/-- C84: every call brings a new object; three of them are held (the bound is `1 * (4 + 2)`), nine with
`reid_hit_counter_max=5` (the bound is `1 * (4 + 5 + 3)`) -/
example : (frames cfg w0 [[0], [20], [40], [60], [80], [100], [120], [140], [160], [180]]).map
      (fun f => f.after.objs.length) = [1, 2, 3, 3, 3, 3, 3, 3, 3, 3] ∧
    (∀ f ∈ frames cfg w0 [[0], [20], [40], [60], [80], [100], [120], [140], [160], [180]],
      Succeeds f ∧ (given f).length ≤ 1 ∧ 0 ≤ f.period ∧ f.period ≤ 1) ∧
    Trace cfg w0 (frames cfg w0 [[0], [20], [40], [60], [80], [100], [120], [140], [160], [180]])
      (run cfg w0 [[0], [20], [40], [60], [80], [100], [120], [140], [160], [180]]) ∧ w0.Initial := by
  refine ⟨by decide +kernel, ?_, run_trace _ _ _, ⟨rfl, rfl, rfl⟩⟩
  have hok : ∀ r : TWorld × Except Err (List TObj), (returned r).isSome = true → ∃ act, r.2 = .ok act :=
    fun r h => (exists_ok h).imp fun a ha => by rw [ha]
  simp only [frames, List.mem_cons, List.not_mem_nil, or_false]
  rintro f (rfl | rfl | rfl | rfl | rfl | rfl | rfl | rfl | rfl | rfl)
  all_goals exact ⟨hok _ (by decide +kernel), by simp [given], by simp, by simp⟩

example : (frames rcfg w0 [[0], [200], [400], [600], [800], [1000], [1200], [1400], [1600], [1800], [2000], [2200]]).map
      (fun f => f.after.objs.length) = [1, 2, 3, 4, 5, 6, 7, 8, 9, 9, 9, 9] := by decide +kernel

end Norfair.Props
