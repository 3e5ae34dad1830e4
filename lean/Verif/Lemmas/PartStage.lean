import Verif.Lemmas.PartLoop
import Verif.Lemmas.Emb

/-! The stages of `update` of a tracker that has a part of the detections and objects of another one. -/

set_option linter.unusedSectionVars false

namespace Norfair

open Norfair.Spec

variable {K L D F X : Type}

/-! ### Distances -/

theorem scalarDistances_pull [LinearOrder D] [OrderTop D] [DecidableEq L] {C O C' O' : Type} {labC : C → L} {labO : O → L}
    {f : C → O → Option (Option D)} {labC' : C' → L} {labO' : O' → L} {f' : C' → O' → Option (Option D)}
    {objsA : List O} {candsA : List C} {objsB : List O'} {candsB : List C'} {ρ γ : Nat → Nat}
    (h : ∀ i j x' y', candsB[i]? = some x' → objsB[j]? = some y' → ∃ x y, candsA[ρ i]? = some x ∧
      objsA[γ j]? = some y ∧ labC' x' = labC x ∧ labO' y' = labO y ∧ f' x' y' = f x y) {M : Mat (Option D)}
    (hM : scalarDistances labC labO f objsA candsA = some M) :
    ∃ N, scalarDistances labC' labO' f' objsB candsB = some N ∧ N.rows = candsB.length ∧ N.cols = objsB.length ∧
      ∀ i < candsB.length, ∀ j < objsB.length, N.val i j = M.val (ρ i) (γ j) := by
  unfold scalarDistances at hM ⊢
  simp only at hM ⊢
  split at hM
  · cases hM
  · rename_i hA
    cases hM
    split
    · rename_i hB
      exfalso
      apply hA
      simp only [List.any_eq_true] at hB ⊢
      obtain ⟨x', hx', y', hy', hn⟩ := hB
      obtain ⟨i, hi⟩ := List.mem_iff_getElem?.mp hx'
      obtain ⟨j, hj⟩ := List.mem_iff_getElem?.mp hy'
      obtain ⟨x, y, h1, h2, h3, h4, h5⟩ := h i j x' y' hi hj
      refine ⟨x, List.mem_of_getElem? h1, y, List.mem_of_getElem? h2, ?_⟩
      rw [h3, h4, h5] at hn
      exact hn
    · refine ⟨_, rfl, rfl, rfl, ?_⟩
      intro i hi j hj
      simp only
      have e1 := List.getElem?_eq_getElem hi
      have e2 := List.getElem?_eq_getElem hj
      obtain ⟨x, y, h1, h2, h3, h4, h5⟩ := h i j _ _ e1 e2
      rw [e1, e2, h1, h2]
      simp only
      rw [h3, h4, h5]

theorem vectorizedDistances_pick [LinearOrder D] [OrderTop D] {C O : Type} (strC : C → String) (strO : O → String)
    (ptsC : C → List K) (ptsO : O → List K) (f : List (List K) → List (List K) → Option (Mat (Option D)))
    (objects : List O) (cands : List C) :
    vectorizedDistances strC strO ptsC ptsO f objects cands =
      vectorizedDistances Prod.fst Prod.fst Prod.snd Prod.snd f (objects.map fun o => (strO o, ptsO o))
        (cands.map fun c => (strC c, ptsC c)) := by
  have hcall : ∀ s, f (((cands.map fun c => (strC c, ptsC c)).filter (fun c => decide (c.1 = s))).map Prod.snd)
      (((objects.map fun o => (strO o, ptsO o)).filter (fun o => decide (o.1 = s))).map Prod.snd) =
      f ((cands.filter (fun c => decide (strC c = s))).map ptsC)
        ((objects.filter (fun o => decide (strO o = s))).map ptsO) := by
    intro s
    rw [List.filter_map, List.filter_map, List.map_map, List.map_map]
    rfl
  unfold vectorizedDistances
  simp only [hcall, List.any_map, Function.comp_def]
  split
  · rfl
  · congr 2
    · simp
    · simp
    · funext i j
      rw [List.getElem?_map, List.getElem?_map]
      cases cands[i]? with
      | none => rfl
      | some c =>
        cases objects[j]? with
        | none => rfl
        | some o =>
          simp only [Option.map_some]
          split
          · rw [← List.map_take, ← List.map_take, List.countP_map, List.countP_map]
            rfl
          · rfl

theorem vectorizedDistances_filter [LinearOrder D] [OrderTop D]
    {f : List (List K) → List (List K) → Option (Mat (Option D))} {objects cands : List (String × List K)}
    (T : String → Bool) {M : Mat (Option D)}
    (hM : vectorizedDistances Prod.fst Prod.fst Prod.snd Prod.snd f objects cands = some M) :
    ∃ N, vectorizedDistances Prod.fst Prod.fst Prod.snd Prod.snd f (objects.filter (T ∘ Prod.fst))
        (cands.filter (T ∘ Prod.fst)) = some N ∧
      N.rows = (cands.filter (T ∘ Prod.fst)).length ∧ N.cols = (objects.filter (T ∘ Prod.fst)).length ∧
      ∀ i < (cands.filter (T ∘ Prod.fst)).length, ∀ j < (objects.filter (T ∘ Prod.fst)).length,
        N.val i j = M.val (emb (T ∘ Prod.fst) cands i) (emb (T ∘ Prod.fst) objects j) := by
  have hfil : ∀ (l : List (String × List K)) s, T s = true →
      (l.filter (T ∘ Prod.fst)).filter (fun c => decide (c.1 = s)) = l.filter (fun c => decide (c.1 = s)) := by
    intro l s hs
    rw [List.filter_filter]
    apply List.filter_congr
    intro x _
    by_cases hx : x.1 = s
    · simp [hx, hs]
    · simp [hx]
  have hcnt : ∀ (l : List (String × List K)) s, T s = true →
      (l.filter (T ∘ Prod.fst)).countP (fun c => decide (c.1 = s)) = l.countP (fun c => decide (c.1 = s)) := by
    intro l s hs
    rw [List.countP_eq_length_filter, hfil l s hs, List.countP_eq_length_filter]
  unfold vectorizedDistances at hM ⊢
  simp only at hM ⊢
  split at hM
  · cases hM
  · rename_i hA
    cases hM
    split
    · rename_i hB
      exfalso
      apply hA
      simp only [List.any_eq_true, Bool.and_eq_true] at hB ⊢
      obtain ⟨x, hx, y, hy, h1, h2⟩ := hB
      rw [List.mem_filter] at hx hy
      have hT : T x.1 = true := hx.2
      rw [hfil _ _ hT, hfil _ _ hT] at h2
      exact ⟨x, hx.1, y, hy.1, h1, h2⟩
    · refine ⟨_, rfl, rfl, rfl, ?_⟩
      intro i hi j hj
      simp only
      rw [← emb_get _ _ i hi, ← emb_get _ _ j hj]
      obtain ⟨x, hx, hTx⟩ := emb_sel _ _ i hi
      obtain ⟨y, hy, hTy⟩ := emb_sel _ _ j hj
      rw [hx, hy]
      simp only
      have hT : T x.1 = true := hTx
      rw [hfil _ _ hT, hfil _ _ hT, ← emb_take _ _ i hi, ← emb_take _ _ j hj, hcnt _ _ hT, hcnt _ _ hT]

section
variable [LinearOrder K] [Zero K] [LinearOrder D] [OrderTop D] [Zero D] [DecidableEq L] {S : L → Bool} {lab : Ref → L}
  {c e : Nat → Nat} {sk : Nat → Bool}

theorem estimate_same (flt : FilterOps K F) {o p : Obj K L D F} (h : SameBut o p) : p.estimate flt = o.estimate flt := by
  unfold SameBut at h
  rw [h]
  rfl

theorem view_same {h g : Ref → Det K L X} (H : HeapPart S lab h g) {o p : Obj K L D F} (hs : SameBut o p)
    (hl : S o.label = true) (ho : Refs S lab o) : ViewBut (o.view h) (p.view g) := by
  refine ⟨hs, ?_, ?_⟩
  · show g p.lastDet = h o.lastDet
    have : p.lastDet = o.lastDet := by rw [hs]
    rw [this]
    exact (H _).2.2 (ho.1.trans hl)
  · show p.past.map g = o.past.map h
    have : p.past = o.past := by rw [hs]
    rw [this]
    apply List.map_congr_left
    intro r hr
    exact (H r).2.2 ((ho.2 r hr).trans hl)

theorem filter_objects {a b : World K L D F X} (h : Part S lab c e sk a b) (ks : List Nat) (hk : ∀ k ∈ ks, k ∈ a.keys) :
    (a.objects ks).filter (fun o => S o.label) = a.objects (ks.filter sk) := by
  unfold World.objects
  induction ks with
  | nil => rfl
  | cons k ks ih =>
    obtain ⟨o, ho⟩ := World.find_isSome_of_mem (hk k (by simp))
    rw [List.filterMap_cons_some ho]
    have := h.sk k o ho
    cases hs : sk k with
    | true =>
      rw [List.filter_cons_of_pos (by rw [this, hs]), List.filter_cons_of_pos hs, List.filterMap_cons_some ho,
        ih (fun k hk' => hk k (by simp [hk']))]
    | false =>
      rw [List.filter_cons_of_neg (by rw [this, hs]; simp), List.filter_cons_of_neg (by rw [hs]; simp),
        ih (fun k hk' => hk k (by simp [hk']))]

theorem emb_objects {a b : World K L D F X} (h : Part S lab c e sk a b) (ks : List Nat) (hk : ∀ k ∈ ks, k ∈ a.keys)
    (i : Nat) : emb (fun o : Obj K L D F => S o.label) (a.objects ks) i = emb sk ks i := by
  unfold World.objects
  induction ks generalizing i with
  | nil => rfl
  | cons k ks ih =>
    obtain ⟨o, ho⟩ := World.find_isSome_of_mem (hk k (by simp))
    rw [List.filterMap_cons_some ho]
    have := h.sk k o ho
    unfold emb
    rw [this]
    cases i with
    | zero => rw [ih (fun k hk' => hk k (by simp [hk']))]
    | succ i => simp only [ih (fun k hk' => hk k (by simp [hk']))]

theorem map_objects {β : Type} {a b : World K L D F X} (h : Part S lab c e sk a b) (g g' : Obj K L D F → β)
    (hg : ∀ o p, Good S e o p → Refs S lab o → g' p = g o) (ks : List Nat) (hk : ∀ k ∈ ks, k ∈ b.keys) :
    (b.objects ks).map g' = (a.objects (ks.map c)).map g := by
  unfold World.objects
  induction ks with
  | nil => rfl
  | cons k ks ih =>
    obtain ⟨p, hp⟩ := World.find_isSome_of_mem (hk k (by simp))
    obtain ⟨o, ho, hgo⟩ := h.objs k p hp
    rw [List.filterMap_cons_some hp, List.map_cons, List.map_cons, List.filterMap_cons_some ho, List.map_cons,
      hg o p hgo (h.refs _ o ho), ih (fun k hk' => hk k (by simp [hk']))]

/-- the distances of the part are the part of the distances -/
theorem detDistances_part {cfg : Cfg K L D F X} (hb : BlindTo cfg S) {a b : World K L D F X}
    (h : Part S lab c e sk a b) {detsA : List Ref} {keysA keysB : List Nat}
    (hkA : ∀ k ∈ keysA, k ∈ a.keys) (hkB : ∀ k ∈ keysB, k ∈ b.keys) (hkeys : keysB.map c = keysA.filter sk)
    {M : Mat (Option D)} (hM : detDistances cfg a.heap (a.objects keysA) detsA = some M) :
    ∃ N, detDistances cfg b.heap (b.objects keysB) (detsA.filter fun r => S (lab r)) = some N ∧
      N.rows = (detsA.filter fun r => S (lab r)).length ∧ N.cols = keysB.length ∧
      ∀ i < (detsA.filter fun r => S (lab r)).length, ∀ j < keysB.length,
        N.val i j = M.val (emb (fun r => S (lab r)) detsA i) (emb sk keysA j) := by
  have hlenB : (b.objects keysB).length = keysB.length := World.objects_length hkB
  have hlen : keysB.length = (keysA.filter sk).length := by rw [← hkeys, List.length_map]
  obtain ⟨hb1, hb2⟩ := hb
  unfold detDistances at hM ⊢
  cases hd : cfg.dist with
  | scalar f =>
    rw [hd] at hM hb1
    simp only at hM hb1 ⊢
    have := scalarDistances_pull (labC' := fun r => (b.heap r).label) (labO' := fun o : Obj K L D F => o.label)
      (f' := fun r o => f (b.heap r) (o.view b.heap)) (objsB := b.objects keysB)
      (candsB := detsA.filter fun r => S (lab r)) (ρ := emb (fun r => S (lab r)) detsA) (γ := emb sk keysA) (by
        intro i j r p hi hj
        have hi' := (List.getElem?_eq_some_iff.mp hi).1
        have hj' : j < keysB.length := by rw [← hlenB]; exact (List.getElem?_eq_some_iff.mp hj).1
        have hr : S (lab r) = true := (List.mem_filter.mp (List.mem_of_getElem? hi)).2
        rw [World.objects_getElem? hkB, List.getElem?_eq_getElem hj'] at hj
        obtain ⟨o, ho, hg⟩ := h.objs _ p hj
        refine ⟨r, o, by rw [emb_get _ _ i hi']; exact hi, ?_, ?_, ?_, ?_⟩
        · rw [World.objects_getElem? hkA, emb_get _ _ j (by rw [← hlen]; exact hj'), ← hkeys, List.getElem?_map,
            List.getElem?_eq_getElem hj']
          exact ho
        · rw [(h.heap r).2.1, (h.heap r).1]
        · rw [hg.same]
        · rw [(h.heap r).2.2 hr]
          exact hb1 _ _ _ (view_same h.heap hg.same hg.label (h.refs _ o ho))) hM
    rw [hlenB] at this
    exact this
  | vectorized str f =>
    rw [hd] at hM hb1
    simp only at hM hb1 ⊢
    obtain ⟨T, hT⟩ := hb1
    rw [vectorizedDistances_pick] at hM ⊢
    have hfc : ((detsA.filter fun r => S (lab r)).map fun r => (str (b.heap r).label, (b.heap r).points.data)) =
        (detsA.map fun r => (str (a.heap r).label, (a.heap r).points.data)).filter (T ∘ Prod.fst) := by
      rw [List.filter_map]
      have : (detsA.filter ((T ∘ Prod.fst) ∘ fun r => (str (a.heap r).label, (a.heap r).points.data))) =
          detsA.filter fun r => S (lab r) := by
        apply List.filter_congr
        intro r _
        simp only [Function.comp]
        rw [(h.heap r).1, hT]
      rw [this]
      apply List.map_congr_left
      intro r hr
      rw [(h.heap r).2.2 (List.mem_filter.mp hr).2]
    have hfo : ((b.objects keysB).map fun o => (str o.label, (o.estimate cfg.flt).data)) =
        ((a.objects keysA).map fun o => (str o.label, (o.estimate cfg.flt).data)).filter (T ∘ Prod.fst) := by
      rw [map_objects h (fun o => (str o.label, (o.estimate cfg.flt).data)) _ (by
        intro o p hg _
        rw [estimate_same cfg.flt hg.same]
        have : p.label = o.label := by rw [hg.same]
        rw [this]) keysB hkB, hkeys, ← filter_objects h keysA hkA, List.filter_map]
      congr 1
      apply List.filter_congr
      intro o _
      simp only [Function.comp]
      rw [hT]
    obtain ⟨N, hN1, hN2, hN3, hN4⟩ := vectorizedDistances_filter T hM
    rw [← hfc, ← hfo] at hN1
    refine ⟨N, hN1, ?_, ?_, ?_⟩
    · rw [hN2, ← hfc, List.length_map]
    · rw [hN3, ← hfo, List.length_map, hlenB]
    · intro i hi j hj
      rw [hN4 i (by rw [← hfc, List.length_map]; exact hi) j (by rw [← hfo, List.length_map, hlenB]; exact hj),
        emb_map, emb_map]
      congr 1
      · apply emb_congr
        intro r _
        simp only [Function.comp]
        rw [(h.heap r).1, hT]
      · rw [← emb_objects h keysA hkA]
        apply emb_congr
        intro o _
        simp only [Function.comp]
        rw [hT]

/-- the matching of the part is the part of the matching -/
theorem match_part {α β : Type} (qR : α → Bool) (qC : β → Bool) (lR : List α) (lC : List β) {M N : Mat (Option D)}
    (hMr : M.rows = lR.length) (hMc : M.cols = lC.length) (hNr : N.rows = (lR.filter qR).length)
    (hNc : N.cols = (lC.filter qC).length)
    (hval : ∀ i < (lR.filter qR).length, ∀ j < (lC.filter qC).length, N.val i j = M.val (emb qR lR i) (emb qC lC j))
    (hcompat : ∀ i j x y, lR[i]? = some x → lC[j]? = some y → qR x ≠ qC y → M.val i j = some ⊤) {thr fill : D}
    {ps : List (Nat × Nat)} (hps : matchDetsAndObjs thr fill (M.map (fun x => x.getD ⊤)) = some ps) :
    ∃ psB, matchDetsAndObjs thr fill (N.map (fun x => x.getD ⊤)) = some psB ∧
      psB.map (Prod.map (emb qR lR) (emb qC lC)) = ps.filter (fun p => (lR[p.1]?).any qR) ∧
      unmatchedOf (lR.filter qR) (psB.map Prod.fst) = (unmatchedOf lR (ps.map Prod.fst)).filter qR ∧
      unmatchedOf (lC.filter qC) (psB.map Prod.snd) = (unmatchedOf lC (ps.map Prod.snd)).filter qC ∧
      (∀ p ∈ ps, ∃ x y, lR[p.1]? = some x ∧ lC[p.2]? = some y ∧ (M.map (fun x => x.getD ⊤)).val p.1 p.2 < thr ∧
        qR x = (lR[p.1]?).any qR ∧ qC y = (lR[p.1]?).any qR) ∧
      (∀ p ∈ psB, p.1 < (lR.filter qR).length ∧ p.2 < (lC.filter qC).length) := by
  set M' := M.map (fun x => x.getD ⊤) with hM'
  set N' := N.map (fun x => x.getD ⊤) with hN'
  have hv' : ∀ i < (lR.filter qR).length, ∀ j < (lC.filter qC).length,
      N'.val i j = M'.val (emb qR lR i) (emb qC lC j) := by
    intro i hi j hj
    show (N.val i j).getD ⊤ = (M.val _ _).getD ⊤
    rw [hval i hi j hj]
  have hsame : ∀ i j x y, lR[i]? = some x → lC[j]? = some y → M'.val i j < thr → qR x = qC y := by
    intro i j x y hx hy hlt
    by_contra hne
    exact Mat.getD_map_val hlt (hcompat i j x y hx hy hne)
  have hcolsel : ∀ i < lR.length, ∀ j < lC.length, M'.val i j < thr →
      ((lR[i]?).any qR = true ↔ ∃ j' < (lC.filter qC).length, emb qC lC j' = j) := by
    intro i hi j hj hlt
    have e1 := List.getElem?_eq_getElem hi
    have e2 := List.getElem?_eq_getElem hj
    have hs := hsame i j _ _ e1 e2 hlt
    rw [e1]
    simp only [Option.any_some]
    rw [hs]
    constructor
    · intro h
      exact emb_surj qC lC j e2 h
    · rintro ⟨j', h1, rfl⟩
      obtain ⟨y, hy, hq⟩ := emb_sel qC lC j' h1
      rw [e2] at hy
      cases hy
      exact hq
  have hg := matchReturns_greedy (thr := thr) (fill := fill) (M := M') ⟨_, hps⟩
  obtain ⟨psB, hB1, hB2⟩ := matchDetsAndObjs_pull (N := N') (ρ := emb qR lR) (γ := emb qC lC) hps
    ⟨by
      intro i hi
      show _ < M.rows
      rw [hMr]
      exact emb_lt _ _ i (by rw [← hNr]; exact hi), by
      intro j hj
      show _ < M.cols
      rw [hMc]
      exact emb_lt _ _ j (by rw [← hNc]; exact hj), by
      intro i hi i' hi'
      exact emb_inj _ _ i i' (by rw [← hNr]; exact hi) (by rw [← hNr]; exact hi'), by
      intro j hj j' hj'
      exact emb_inj _ _ j j' (by rw [← hNc]; exact hj) (by rw [← hNc]; exact hj')⟩
    (fun i hi j hj => hv' i (by rw [← hNr]; exact hi) j (by rw [← hNc]; exact hj))
    (fun i => (lR[i]?).any qR)
    (by
      intro i hi
      have hi' : i < lR.length := by rw [← hMr]; exact hi
      have e1 := List.getElem?_eq_getElem hi'
      show (lR[i]?).any qR = true ↔ ∃ i' < N.rows, emb qR lR i' = i
      rw [e1, hNr]
      simp only [Option.any_some]
      constructor
      · intro h
        exact emb_surj qR lR i e1 h
      · rintro ⟨i', h1, rfl⟩
        obtain ⟨y, hy, hq⟩ := emb_sel qR lR i' h1
        rw [e1] at hy
        cases hy
        exact hq)
    (by
      intro i hi j hj hlt
      have := hcolsel i (by rw [← hMr]; exact hi) j (by rw [← hMc]; exact hj) hlt
      rw [← hNc] at this
      exact this)
    (by
      intro i hi j hj i' hi' j' hj' _ hpre
      refine precedes_of_mono (rows' := N.rows) (cols' := N.cols) (cols := M.cols) (d := M'.val) ?_ ?_ ?_ ?_ hi hj hi' hj' hpre
      · intro i hi i' hi' hlt
        exact emb_mono _ _ i i' hlt (by rw [← hNr]; exact hi')
      · intro j hj j' hj' hlt
        exact emb_mono _ _ j j' hlt (by rw [← hNc]; exact hj')
      · intro j hj
        rw [hMc]
        exact emb_lt _ _ j (by rw [← hNc]; exact hj)
      · intro i hi j hj
        exact hv' i (by rw [← hNr]; exact hi) j (by rw [← hNc]; exact hj))
  have hgB := matchReturns_greedy (thr := thr) (fill := fill) (M := N') ⟨_, hB1⟩
  have hrB : ∀ p ∈ psB, p.1 < (lR.filter qR).length ∧ p.2 < (lC.filter qC).length := by
    intro p hp
    have := hgB.inRange p hp
    exact ⟨by rw [← hNr]; exact this.1, by rw [← hNc]; exact this.2⟩
  have hin : ∀ p ∈ psB, Prod.map (emb qR lR) (emb qC lC) p ∈ ps := by
    intro p hp
    have : Prod.map (emb qR lR) (emb qC lC) p ∈ psB.map (Prod.map (emb qR lR) (emb qC lC)) := List.mem_map_of_mem hp
    rw [hB2] at this
    exact (List.mem_filter.mp this).1
  have hout : ∀ p ∈ ps, (lR[p.1]?).any qR = true → ∃ q ∈ psB, Prod.map (emb qR lR) (emb qC lC) q = p := by
    intro p hp hs
    have : p ∈ psB.map (Prod.map (emb qR lR) (emb qC lC)) := by rw [hB2]; exact List.mem_filter.mpr ⟨hp, hs⟩
    exact List.mem_map.mp this
  refine ⟨psB, hB1, hB2, unmatchedOf_emb _ _ ?_, unmatchedOf_emb _ _ ?_, ?_, hrB⟩
  · intro i hi
    constructor
    · intro h
      obtain ⟨p, hp, rfl⟩ := List.mem_map.mp h
      exact List.mem_map.mpr ⟨_, hin p hp, rfl⟩
    · intro h
      obtain ⟨p, hp, he⟩ := List.mem_map.mp h
      obtain ⟨x, hx, hq⟩ := emb_sel qR lR i hi
      obtain ⟨q, hq1, hq2⟩ := hout p hp (by rw [he, hx]; exact hq)
      have : emb qR lR q.1 = emb qR lR i := by rw [← he, ← hq2]; rfl
      have := emb_inj _ _ q.1 i (hrB q hq1).1 hi this
      exact List.mem_map.mpr ⟨q, hq1, this⟩
  · intro j hj
    constructor
    · intro h
      obtain ⟨p, hp, rfl⟩ := List.mem_map.mp h
      exact List.mem_map.mpr ⟨_, hin p hp, rfl⟩
    · intro h
      obtain ⟨p, hp, he⟩ := List.mem_map.mp h
      have hr := hg.inRange p hp
      obtain ⟨q, hq1, hq2⟩ := hout p hp ((hcolsel p.1 (by rw [← hMr]; exact hr.1) p.2 (by rw [← hMc]; exact hr.2)
        (hg.below p hp)).mpr ⟨j, hj, he.symm⟩)
      have : emb qC lC q.2 = emb qC lC j := by rw [← he, ← hq2]; rfl
      have := emb_inj _ _ q.2 j (hrB q hq1).2 hj this
      exact List.mem_map.mpr ⟨q, hq1, this⟩
  · intro p hp
    have hr := hg.inRange p hp
    have e1 := List.getElem?_eq_getElem (l := lR) (i := p.1) (by rw [← hMr]; exact hr.1)
    have e2 := List.getElem?_eq_getElem (l := lC) (i := p.2) (by rw [← hMc]; exact hr.2)
    refine ⟨_, _, e1, e2, hg.below p hp, ?_, ?_⟩
    · rw [e1]; rfl
    · rw [e1, ← hsame p.1 p.2 _ _ e1 e2 (hg.below p hp)]; rfl

theorem hasNan_false {M : Mat (Option D)} : M.hasNan = false ↔ ∀ i < M.rows, ∀ j < M.cols, M.val i j ≠ none := by
  unfold Mat.hasNan
  simp [List.any_eq_false]

/-- a stage that gets through -/
theorem stageDet_run {cfg : Cfg K L D F X} {period : Int} {w : World K L D F X} {keys : List Nat} {dets : List Ref}
    (hd : dets.length ≠ 0) {M : Mat (Option D)} (hM : detDistances cfg w.heap (w.objects keys) dets = some M)
    (hn : M.hasNan = false) {ps : List (Nat × Nat)}
    (hp : matchDetsAndObjs cfg.thr cfg.fill (M.map (fun x => x.getD ⊤)) = some ps) :
    stageDet cfg period w keys dets = hitLoop cfg cfg.thr period (M.map (fun x => x.getD ⊤)) dets keys ps
      (if (M.map (fun x => x.getD ⊤)).anyNonzero then setMins cfg.thr (M.map (fun x => x.getD ⊤)) 0 keys w else w)
      ⟨unmatchedOf dets (ps.map Prod.fst), [], unmatchedOf keys (ps.map Prod.snd)⟩ := by
  unfold stageDet
  rw [if_neg hd, hM]
  simp only [hn, Bool.false_eq_true, if_false, hp]
  split
  · rfl
  · rename_i h0
    have : ps = [] := List.length_eq_zero_iff.mp (by omega)
    subst this
    simp only [List.map_nil, unmatchedOf_nil]
    rfl

theorem stageDet_inv {cfg : Cfg K L D F X} {period : Int} {w w' : World K L D F X} {keys : List Nat} {dets : List Ref}
    {out : StageOut Ref} (hd : dets.length ≠ 0) (h : stageDet cfg period w keys dets = (w', .ok out)) :
    ∃ M ps, detDistances cfg w.heap (w.objects keys) dets = some M ∧ M.hasNan = false ∧
      matchDetsAndObjs cfg.thr cfg.fill (M.map (fun x => x.getD ⊤)) = some ps := by
  unfold stageDet at h
  rw [if_neg hd] at h
  split at h
  · cases h
  · rename_i M hM
    split at h
    · cases h
    · rename_i hn
      simp only at h
      split at h
      · exact absurd (congrArg Prod.snd h) (by simp)
      · rename_i ps hp
        exact ⟨M, ps, hM, by simpa using hn, hp⟩

/-- the world after lines 301-306 -/
theorem mins_spec (thr : D) (M : Mat D) (keys : List Nat) (w : World K L D F X) :
    (if M.anyNonzero then setMins thr M 0 keys w else w).keys = w.keys ∧
    (if M.anyNonzero then setMins thr M 0 keys w else w).initCount = w.initCount ∧
    (if M.anyNonzero then setMins thr M 0 keys w else w).heap = w.heap ∧
    (if M.anyNonzero then setMins thr M 0 keys w else w).count = w.count ∧
    (if M.anyNonzero then setMins thr M 0 keys w else w).gcount = w.gcount ∧
    ∀ k o, w.find k = some o → ∃ v, (if M.anyNonzero then setMins thr M 0 keys w else w).find k =
      some { o with curMin := v } := by
  split
  · obtain ⟨h1, h2, h3, h4, h5, h6⟩ := setMins_spec thr M keys 0 w
    exact ⟨h1, h2, h3, h4, h5, fun k o ho => by obtain ⟨v, hv, _⟩ := h6 k o ho; exact ⟨v, hv⟩⟩
  · exact ⟨rfl, rfl, rfl, rfl, rfl, fun k o ho => ⟨o.curMin, ho⟩⟩

theorem same_spec (w : World K L D F X) :
    w.keys = w.keys ∧ w.initCount = w.initCount ∧ w.heap = w.heap ∧ w.count = w.count ∧ w.gcount = w.gcount ∧
    ∀ k o, w.find k = some o → ∃ v, w.find k = some { o with curMin := v } :=
  ⟨rfl, rfl, rfl, rfl, rfl, fun k o ho => ⟨o.curMin, ho⟩⟩

theorem stageDet_part {cfg : Cfg K L D F X} (hbl : BlindTo cfg S) (period : Int) {a b : World K L D F X}
    (h : Part S lab c e sk a b) {detsA : List Ref} {keysA keysB : List Nat}
    (hkA : ∀ k ∈ keysA, k ∈ a.keys) (hkB : ∀ k ∈ keysB, k ∈ b.keys) (hkeys : keysB.map c = keysA.filter sk)
    {a' : World K L D F X} {outA : StageOut Ref} (hrun : stageDet cfg period a keysA detsA = (a', .ok outA)) :
    ∃ e' b' outB, stageDet cfg period b keysB (detsA.filter fun r => S (lab r)) = (b', .ok outB) ∧
      Part S lab c e' sk a' b' ∧ a'.keys = a.keys ∧ b'.keys = b.keys ∧
      outB.unmatchedC = outA.unmatchedC.filter (fun r => S (lab r)) ∧
      outB.unmatchedO.map c = outA.unmatchedO.filter sk ∧ outB.matchedO.map c = outA.matchedO.filter sk := by
  by_cases hd : detsA.length = 0
  · have : detsA = [] := List.length_eq_zero_iff.mp hd
    subst this
    unfold stageDet at hrun ⊢
    rw [if_pos (by rfl)] at hrun
    rw [if_pos (by rfl)]
    cases hrun
    exact ⟨e, b, _, rfl, h, rfl, rfl, rfl, hkeys, rfl⟩
  · obtain ⟨M, ps, hM, hn, hp⟩ := stageDet_inv hd hrun
    rw [stageDet_run hd hM hn hp] at hrun
    obtain ⟨hMr, hMc, hMcompat⟩ := detDistances_spec hM
    rw [World.objects_length hkA] at hMc
    obtain ⟨N, hN, hNr, hNc, hNv⟩ := detDistances_part (detsA := detsA) hbl h hkA hkB hkeys hM
    have hlen : keysB.length = (keysA.filter sk).length := by rw [← hkeys, List.length_map]
    obtain ⟨psB, hpB, hmap, hu1, hu2, hinA, hinB⟩ := match_part (fun r => S (lab r)) sk detsA keysA hMr hMc hNr
      (by rw [hNc, hlen]) (by rw [← hlen]; exact hNv) (by
        intro i j r k hr hk hne
        obtain ⟨o, ho⟩ := World.find_isSome_of_mem (hkA k (List.mem_of_getElem? hk))
        refine hMcompat i j r o hr (by rw [World.objects_getElem? hkA, hk]; exact ho) ?_
        intro hc
        apply hne
        rw [← h.sk k o ho, ← (h.heap r).1]
        unfold Compat at hc
        have hb1 := hbl.1
        cases hdist : cfg.dist with
        | scalar f => rw [hdist] at hc; simp only at hc; rw [hc]
        | vectorized str f =>
          rw [hdist] at hc hb1
          simp only at hc hb1
          obtain ⟨T, hT⟩ := hb1
          rw [hT, hT, hc]) hp
    have hnB : N.hasNan = false := by
      rw [hasNan_false]
      intro i hi j hj
      rw [hNr] at hi
      rw [hNc] at hj
      rw [hNv i hi j hj]
      exact hasNan_false.mp hn _ (by rw [hMr]; exact emb_lt _ _ i hi) _ (by rw [hMc]; exact emb_lt _ _ j (by rw [← hlen]; exact hj))
    have hmapc : ∀ idx, (unmatchedOf keysB idx).map c = unmatchedOf (keysA.filter sk) idx := by
      intro idx
      rw [← unmatchedOf_map, hkeys]
    -- the world in which the small tracker hits its objects
    have key : ∀ b1 : World K L D F X, b1.keys = b.keys → b1.initCount = b.initCount → b1.heap = b.heap →
        b1.count = b.count → b1.gcount = b.gcount →
        (∀ k o, b.find k = some o → ∃ v, b1.find k = some { o with curMin := v }) →
        ∃ e' b' outB, hitLoop cfg cfg.thr period (N.map (fun x => x.getD ⊤)) (detsA.filter fun r => S (lab r)) keysB psB b1
          ⟨unmatchedOf (detsA.filter fun r => S (lab r)) (psB.map Prod.fst), [], unmatchedOf keysB (psB.map Prod.snd)⟩ =
            (b', .ok outB) ∧ Part S lab c e' sk a' b' ∧ a'.keys = a.keys ∧ b'.keys = b.keys ∧
          outB.unmatchedC = outA.unmatchedC.filter (fun r => S (lab r)) ∧
          outB.unmatchedO.map c = outA.unmatchedO.filter sk ∧ outB.matchedO.map c = outA.matchedO.filter sk := by
      intro b1 k1 k2 k3 k4 k5 k6
      have hA1 := mins_spec cfg.thr (M.map (fun x => x.getD ⊤)) keysA a
      obtain ⟨e', b', outB, r1, r2, r3, r4, r5, r6, r7, r8, r9, r10, r11⟩ := hitLoop_part cfg cfg.thr period
        (detsB := detsA.filter fun r => S (lab r)) (keysB := keysB) (N := N.map (fun x => x.getD ⊤))
        (ρ := emb (fun r => S (lab r)) detsA) (γ := emb sk keysA) (sel := fun i => (detsA[i]?).any fun r => S (lab r))
        (by
          intro i r hi
          rw [emb_get _ _ i (List.getElem?_eq_some_iff.mp hi).1]
          exact hi)
        (by
          intro j k hj
          have hj' := (List.getElem?_eq_some_iff.mp hj).1
          rw [emb_get _ _ j (by rw [← hlen]; exact hj'), ← hkeys, List.getElem?_map, hj]
          rfl)
        (by
          intro i j hi hj
          show (N.val i j).getD ⊤ = (M.val _ _).getD ⊤
          rw [hNv i hi j hj])
        ps psB e _ b1 _ ⟨unmatchedOf (detsA.filter fun r => S (lab r)) (psB.map Prod.fst), [],
          unmatchedOf keysB (psB.map Prod.snd)⟩ (h.mins hA1 ⟨k1, k2, k3, k4, k5, k6⟩)
        (by rw [hA1.1]; exact hkA) (by rw [k1]; exact hkB) hmap hinA (by rw [hlen]; exact hinB) rfl hrun
      refine ⟨e', b', outB, r1, r2, by rw [r3, hA1.1], by rw [r4, k1], ?_, ?_, r11⟩
      · rw [r9, r7, hu1]
      · rw [r10, r8, hmapc, hu2]
    by_cases hdB : (detsA.filter fun r => S (lab r)).length = 0
    · obtain ⟨e', b', outB, r1, r2⟩ := key b rfl rfl rfl rfl rfl (same_spec b).2.2.2.2.2
      have hpsB : psB = [] := by
        cases psB with
        | nil => rfl
        | cons p l => have := (hinB p (by simp)).1; omega
      rw [hpsB] at r1
      have hnil : (detsA.filter fun r => S (lab r)) = [] := List.length_eq_zero_iff.mp hdB
      refine ⟨e', b', outB, ?_, r2⟩
      rw [← r1]
      unfold stageDet hitLoop
      rw [if_pos hdB, hnil]
      simp only [List.map_nil, unmatchedOf_nil]
    · have hB1 := mins_spec cfg.thr (N.map (fun x => x.getD ⊤)) keysB b
      obtain ⟨e', b', outB, r1, r2⟩ := key _ hB1.1 hB1.2.1 hB1.2.2.1 hB1.2.2.2.1 hB1.2.2.2.2.1 hB1.2.2.2.2.2
      refine ⟨e', b', outB, ?_, r2⟩
      rw [stageDet_run hdB hN hnB hpB]
      exact r1

theorem stageReid_run {cfg : Cfg K L D F X} {f} {w : World K L D F X} {keys cands : List Nat}
    (hd : cands.length ≠ 0) {M : Mat (Option D)}
    (hM : reidDistances f w.heap (w.objects keys) (w.objects cands) = some M)
    (hn : M.hasNan = false) {ps : List (Nat × Nat)}
    (hp : matchDetsAndObjs cfg.reidThr cfg.reidFill (M.map (fun x => x.getD ⊤)) = some ps) :
    stageReid cfg f w keys cands = mergeLoop cfg cfg.reidThr (M.map (fun x => x.getD ⊤)) cands keys ps
      (if (M.map (fun x => x.getD ⊤)).anyNonzero then setMins cfg.reidThr (M.map (fun x => x.getD ⊤)) 0 keys w else w)
      ⟨unmatchedOf cands (ps.map Prod.fst), [], unmatchedOf keys (ps.map Prod.snd)⟩ := by
  unfold stageReid
  rw [if_neg hd, hM]
  simp only [hn, Bool.false_eq_true, if_false, hp]
  split
  · rfl
  · rename_i h0
    have : ps = [] := List.length_eq_zero_iff.mp (by omega)
    subst this
    simp only [List.map_nil, unmatchedOf_nil]
    rfl

theorem stageReid_inv {cfg : Cfg K L D F X} {f} {w w' : World K L D F X} {keys cands : List Nat}
    {out : StageOut Nat} (hd : cands.length ≠ 0) (h : stageReid cfg f w keys cands = (w', .ok out)) :
    ∃ M ps, reidDistances f w.heap (w.objects keys) (w.objects cands) = some M ∧ M.hasNan = false ∧
      matchDetsAndObjs cfg.reidThr cfg.reidFill (M.map (fun x => x.getD ⊤)) = some ps := by
  unfold stageReid at h
  rw [if_neg hd] at h
  split at h
  · cases h
  · rename_i M hM
    split at h
    · cases h
    · rename_i hn
      simp only at h
      split at h
      · exact absurd (congrArg Prod.snd h) (by simp)
      · rename_i ps hp
        exact ⟨M, ps, hM, by simpa using hn, hp⟩

theorem objects_part {a b : World K L D F X} (h : Part S lab c e sk a b) {keysA keysB : List Nat}
    (hkA : ∀ k ∈ keysA, k ∈ a.keys) (hkB : ∀ k ∈ keysB, k ∈ b.keys) (hkeys : keysB.map c = keysA.filter sk)
    {j : Nat} {p : Obj K L D F} (hj : (b.objects keysB)[j]? = some p) :
    ∃ o, (a.objects keysA)[emb sk keysA j]? = some o ∧ Good S e o p ∧ Refs S lab o := by
  have hlen : keysB.length = (keysA.filter sk).length := by rw [← hkeys, List.length_map]
  have hj' : j < keysB.length := by rw [← World.objects_length hkB]; exact (List.getElem?_eq_some_iff.mp hj).1
  rw [World.objects_getElem? hkB, List.getElem?_eq_getElem hj'] at hj
  obtain ⟨o, ho, hg⟩ := h.objs _ p hj
  refine ⟨o, ?_, hg, h.refs _ o ho⟩
  rw [World.objects_getElem? hkA, emb_get _ _ j (by rw [← hlen]; exact hj'), ← hkeys, List.getElem?_map,
    List.getElem?_eq_getElem hj']
  exact ho

theorem stageReid_part {cfg : Cfg K L D F X} {f} (hbl : BlindReid f) {a b : World K L D F X}
    (h : Part S lab c e sk a b) (hord : b.keys.map c = a.keys.filter sk) {keysA keysB candsA candsB : List Nat}
    (hkA : ∀ k ∈ keysA, k ∈ a.keys) (hkB : ∀ k ∈ keysB, k ∈ b.keys) (hkeys : keysB.map c = keysA.filter sk)
    (hcA : ∀ k ∈ candsA, k ∈ a.keys) (hcB : ∀ k ∈ candsB, k ∈ b.keys) (hcands : candsB.map c = candsA.filter sk)
    (hcn : candsA.Nodup) (hdisj : ∀ k ∈ candsA, ∀ k' ∈ keysA, k ≠ k')
    {a' : World K L D F X} {outA : StageOut Nat} (hrun : stageReid cfg f a keysA candsA = (a', .ok outA)) :
    ∃ e' b' outB, stageReid cfg f b keysB candsB = (b', .ok outB) ∧ Part S lab c e' sk a' b' ∧
      b'.keys.map c = a'.keys.filter sk := by
  have hlenc : candsB.length = (candsA.filter sk).length := by rw [← hcands, List.length_map]
  have hlen : keysB.length = (keysA.filter sk).length := by rw [← hkeys, List.length_map]
  by_cases hd : candsA.length = 0
  · have : candsA = [] := List.length_eq_zero_iff.mp hd
    subst this
    have : candsB = [] := List.length_eq_zero_iff.mp hlenc
    subst this
    unfold stageReid at hrun ⊢
    rw [if_pos (by rfl)] at hrun
    rw [if_pos (by rfl)]
    cases hrun
    exact ⟨e, b, _, rfl, h, hord⟩
  · obtain ⟨M, ps, hM, hn, hp⟩ := stageReid_inv hd hrun
    rw [stageReid_run hd hM hn hp] at hrun
    obtain ⟨hMr, hMc, hMcompat⟩ := reidDistances_spec hM
    rw [World.objects_length hkA] at hMc
    rw [World.objects_length hcA] at hMr
    obtain ⟨N, hN, hNr, hNc, hNv⟩ := scalarDistances_pull (labC' := fun o : Obj K L D F => o.label)
      (labO' := fun o : Obj K L D F => o.label) (f' := fun c o => f (c.view b.heap) (o.view b.heap))
      (objsB := b.objects keysB) (candsB := b.objects candsB) (ρ := emb sk candsA) (γ := emb sk keysA) (by
        intro i j pc p hi hj
        obtain ⟨oc, h1, h2, h3⟩ := objects_part h hcA hcB hcands hi
        obtain ⟨o, g1, g2, g3⟩ := objects_part h hkA hkB hkeys hj
        refine ⟨oc, o, h1, g1, by rw [h2.same], by rw [g2.same], ?_⟩
        exact hbl _ _ _ _ (view_same h.heap h2.same h2.label h3) (view_same h.heap g2.same g2.label g3)) hM
    change reidDistances f b.heap (b.objects keysB) (b.objects candsB) = some N at hN
    rw [World.objects_length hcB] at hNr hNv
    rw [World.objects_length hkB] at hNc hNv
    obtain ⟨psB, hpB, hmap, hu1, hu2, hinA, hinB⟩ := match_part sk sk candsA keysA hMr hMc (by rw [hNr, hlenc])
      (by rw [hNc, hlen]) (by rw [← hlen, ← hlenc]; exact hNv) (by
        intro i j kc k hr hk hne
        obtain ⟨oc, hoc⟩ := World.find_isSome_of_mem (hcA kc (List.mem_of_getElem? hr))
        obtain ⟨o, ho⟩ := World.find_isSome_of_mem (hkA k (List.mem_of_getElem? hk))
        refine hMcompat i j oc o (by rw [World.objects_getElem? hcA, hr]; exact hoc)
          (by rw [World.objects_getElem? hkA, hk]; exact ho) ?_
        intro hc
        apply hne
        rw [← h.sk k o ho, ← h.sk kc oc hoc, hc]) hp
    have hnB : N.hasNan = false := by
      rw [hasNan_false]
      intro i hi j hj
      rw [hNr] at hi
      rw [hNc] at hj
      rw [hNv i hi j hj]
      exact hasNan_false.mp hn _ (by rw [hMr]; exact emb_lt _ _ i (by rw [← hlenc]; exact hi)) _
        (by rw [hMc]; exact emb_lt _ _ j (by rw [← hlen]; exact hj))
    have key : ∀ b1 : World K L D F X, b1.keys = b.keys → b1.initCount = b.initCount → b1.heap = b.heap →
        b1.count = b.count → b1.gcount = b.gcount →
        (∀ k o, b.find k = some o → ∃ v, b1.find k = some { o with curMin := v }) → ∀ out,
        ∃ e' b' outB, mergeLoop cfg cfg.reidThr (N.map (fun x => x.getD ⊤)) candsB keysB psB b1 out = (b', .ok outB) ∧
          Part S lab c e' sk a' b' ∧ b'.keys.map c = a'.keys.filter sk := by
      intro b1 k1 k2 k3 k4 k5 k6 out
      have hA1 := mins_spec cfg.reidThr (M.map (fun x => x.getD ⊤)) keysA a
      have hgA := matchReturns_greedy (thr := cfg.reidThr) (fill := cfg.reidFill) ⟨_, hp⟩
      refine mergeLoop_part cfg cfg.reidThr (candsB := candsB) (keysB := keysB) (N := N.map (fun x => x.getD ⊤))
        (ρ := emb sk candsA) (γ := emb sk keysA) (sel := fun i => (candsA[i]?).any sk)
        (by
          intro i k hi
          have hi' := (List.getElem?_eq_some_iff.mp hi).1
          rw [emb_get _ _ i (by rw [← hlenc]; exact hi'), ← hcands, List.getElem?_map, hi]
          rfl)
        (by
          intro j k hj
          have hj' := (List.getElem?_eq_some_iff.mp hj).1
          rw [emb_get _ _ j (by rw [← hlen]; exact hj'), ← hkeys, List.getElem?_map, hj]
          rfl)
        (by
          intro i j hi hj
          show (N.val i j).getD ⊤ = (M.val _ _).getD ⊤
          rw [hNv i hi j hj])
        hcn hdisj ps psB e _ b1 _ out (h.mins hA1 ⟨k1, k2, k3, k4, k5, k6⟩) (by rw [k1, hA1.1]; exact hord)
        hgA.rowsNodup hmap ?_ ?_ hrun
      · intro p hp
        obtain ⟨kc, k, h1, h2, h3, h4, h5⟩ := hinA p hp
        rw [hA1.1]
        exact ⟨kc, k, h1, h2, h3, h4, h5, hcA kc (List.mem_of_getElem? h1), hkA k (List.mem_of_getElem? h2)⟩
      · intro p hp
        obtain ⟨h1, h2⟩ := hinB p hp
        rw [← hlenc] at h1
        rw [← hlen] at h2
        have e1 := List.getElem?_eq_getElem h1
        have e2 := List.getElem?_eq_getElem h2
        rw [k1]
        exact ⟨_, _, e1, e2, hcB _ (List.mem_of_getElem? e1), hkB _ (List.mem_of_getElem? e2)⟩
    by_cases hdB : candsB.length = 0
    · obtain ⟨e', b', outB, r1, r2⟩ := key b rfl rfl rfl rfl rfl (same_spec b).2.2.2.2.2 ⟨[], [], keysB⟩
      have hpsB : psB = [] := by
        cases psB with
        | nil => rfl
        | cons p l => have := (hinB p (by simp)).1; omega
      rw [hpsB] at r1
      refine ⟨e', b', outB, ?_, r2⟩
      rw [← r1]
      unfold stageReid mergeLoop
      rw [if_pos hdB]
    · have hB1 := mins_spec cfg.reidThr (N.map (fun x => x.getD ⊤)) keysB b
      obtain ⟨e', b', outB, r1, r2⟩ := key _ hB1.1 hB1.2.1 hB1.2.2.1 hB1.2.2.2.1 hB1.2.2.2.2.1 hB1.2.2.2.2.2 _
      refine ⟨e', b', outB, ?_, r2⟩
      rw [stageReid_run hdB hN hnB hpB]
      exact r1

end

end Norfair
