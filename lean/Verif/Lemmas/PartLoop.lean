import Verif.Lemmas.Part

/-! The loops of `update` of a tracker that has a part of the detections and objects of another one. -/

set_option linter.unusedSectionVars false

namespace Norfair

open Norfair.Spec

variable {K L D F X : Type}

section
variable [LinearOrder K] [Zero K] [LinearOrder D] [OrderTop D] [Zero D] [DecidableEq L] {S : L → Bool} {lab : Ref → L}
  {c e : Nat → Nat} {sk : Nat → Bool}

theorem map_eq_cons_of {α β : Type} {f : α → β} {l : List α} {b : β} {m : List β} (h : l.map f = b :: m) :
    ∃ x l', l = x :: l' ∧ f x = b ∧ l'.map f = m := by
  cases l with
  | nil => cases h
  | cons x l' =>
    simp only [List.map_cons, List.cons.injEq] at h
    exact ⟨x, l', rfl, h.1, h.2⟩

theorem hitLoop_part (cfg : Cfg K L D F X) (thr : D) (period : Int) {M N : Mat D} {detsA detsB : List Ref}
    {keysA keysB : List Nat} {ρ γ : Nat → Nat} {sel : Nat → Bool}
    (hdet : ∀ i r, detsB[i]? = some r → detsA[ρ i]? = some r)
    (hkey : ∀ j k, keysB[j]? = some k → keysA[γ j]? = some (c k))
    (hval : ∀ i j, i < detsB.length → j < keysB.length → N.val i j = M.val (ρ i) (γ j))
    (psA psB : List (Nat × Nat)) (e : Nat → Nat) (a b : World K L D F X) (outA outB : StageOut Ref)
    (h : Part S lab c e sk a b) (hkA : ∀ k ∈ keysA, k ∈ a.keys) (hkB : ∀ k ∈ keysB, k ∈ b.keys)
    (hps : psB.map (Prod.map ρ γ) = psA.filter (fun p => sel p.1))
    (hA : ∀ p ∈ psA, ∃ r k, detsA[p.1]? = some r ∧ keysA[p.2]? = some k ∧ M.val p.1 p.2 < thr ∧
      S (lab r) = sel p.1 ∧ sk k = sel p.1)
    (hB : ∀ p ∈ psB, p.1 < detsB.length ∧ p.2 < keysB.length)
    (hm : outB.matchedO.map c = outA.matchedO.filter sk) {a' : World K L D F X} {outA' : StageOut Ref}
    (hrun : hitLoop cfg thr period M detsA keysA psA a outA = (a', .ok outA')) :
    ∃ e' b' outB', hitLoop cfg thr period N detsB keysB psB b outB = (b', .ok outB') ∧ Part S lab c e' sk a' b' ∧
      a'.keys = a.keys ∧ b'.keys = b.keys ∧ a'.initCount = a.initCount ∧ b'.initCount = b.initCount ∧
      outA'.unmatchedC = outA.unmatchedC ∧ outA'.unmatchedO = outA.unmatchedO ∧
      outB'.unmatchedC = outB.unmatchedC ∧ outB'.unmatchedO = outB.unmatchedO ∧
      outB'.matchedO.map c = outA'.matchedO.filter sk := by
  induction psA generalizing psB e a b outA outB with
  | nil =>
    rw [List.filter_nil, List.map_eq_nil_iff] at hps
    subst hps
    unfold hitLoop at hrun ⊢
    cases hrun
    exact ⟨e, b, outB, rfl, h, rfl, rfl, rfl, rfl, rfl, rfl, rfl, rfl, hm⟩
  | cons p psA ih =>
    obtain ⟨i, j⟩ := p
    obtain ⟨r, k, hi, hj, hlt, hr, hk⟩ := hA (i, j) (by simp)
    simp only at hi hj hlt hr hk
    obtain ⟨o, ho⟩ := World.find_isSome_of_mem (hkA k (List.mem_of_getElem? hj))
    have hSo : S o.label = sel i := by rw [h.sk k o ho, hk]
    rw [hitLoop, hi, hj] at hrun
    simp only [hlt, if_true, ho] at hrun
    obtain ⟨b1, b2, _⟩ := hitObj_basic cfg a.heap a.gcount a.count o r period
    have hrefs := hitObj_refs cfg a.heap (h.refs k o ho) (hr.trans hSo.symm) a.gcount a.count period
    cases hs : sel i with
    | true =>
      rw [hs] at hr hk hSo
      rw [List.filter_cons_of_pos (by exact hs)] at hps
      obtain ⟨q, qs, rfl, hq, hqs⟩ := map_eq_cons_of hps
      obtain ⟨i', j'⟩ := q
      simp only [Prod.map, Prod.mk.injEq] at hq
      obtain ⟨hi', hj'⟩ := hB (i', j') (by simp)
      simp only at hi' hj'
      have di : detsB[i']? = some detsB[i'] := List.getElem?_eq_getElem hi'
      have dj : keysB[j']? = some keysB[j'] := List.getElem?_eq_getElem hj'
      have er : detsB[i'] = r := by
        have := hdet _ _ di
        rw [hq.1, hi] at this
        exact (Option.some.inj this).symm
      have ek : c keysB[j'] = k := by
        have := hkey _ _ dj
        rw [hq.2, hj] at this
        exact (Option.some.inj this).symm
      have ev : N.val i' j' = M.val i j := by rw [hval i' j' hi' hj', hq.1, hq.2]
      obtain ⟨p, hp⟩ := World.find_isSome_of_mem (hkB _ (List.mem_of_getElem? dj))
      rw [er] at di
      generalize hkb : keysB[j'] = kb at dj ek hp
      subst ek
      obtain ⟨o0, ho0, hg⟩ := h.objs kb p hp
      rw [ho] at ho0
      cases ho0
      obtain ⟨g1, g2, g3, t, g4, g5⟩ := hitObj_part cfg h.heap hg.same hg.label (h.refs _ o ho) hr a.gcount a.count
        b.gcount b.count period
      obtain ⟨p1, p2, _⟩ := hitObj_basic cfg b.heap b.gcount b.count p r period
      rw [hitLoop, di, dj]
      simp only [ev, hlt, if_true, hp, g1]
      cases herr : (hitObj cfg a.heap a.gcount a.count o r period).err with
      | some x => rw [herr] at hrun; cases hrun
      | none =>
        rw [herr] at hrun
        simp only at hrun ⊢
        have hpart := h.after (o' := { (hitObj cfg a.heap a.gcount a.count o r period).obj with
            lastDistance := some (M.val i j) })
          (p' := { (hitObj cfg b.heap b.gcount b.count p r period).obj with lastDistance := some (M.val i j) })
          hp ho b1 p1 b2 (by unfold SameBut at g3 ⊢; rw [g3]) hrefs g2 g4 g5
        obtain ⟨e', b', outB', r1, r2, r3, r4, r5, r6, r7⟩ := ih qs _ _ _ { outA with matchedO := outA.matchedO ++ [c kb] }
          { outB with matchedO := outB.matchedO ++ [kb] } hpart (by intro k' hk'; rw [World.after_keys]; exact hkA k' hk')
          (by intro k' hk'; rw [World.after_keys]; exact hkB k' hk') hqs (fun q hq => hA q (by simp [hq]))
          (fun q hq => hB q (by simp [hq])) (by
            simp only [List.map_append, List.filter_append, hm, List.map_cons, List.map_nil]
            congr 1
            rw [List.filter_cons_of_pos hk, List.filter_nil]) hrun
        refine ⟨e', b', outB', r1, r2, ?_, ?_, r5, r6, r7⟩
        · rw [r3, World.after_keys]
        · rw [r4, World.after_keys]
    | false =>
      rw [hs] at hr hk hSo
      rw [List.filter_cons_of_neg (by rw [hs]; simp)] at hps
      cases herr : (hitObj cfg a.heap a.gcount a.count o r period).err with
      | some x => rw [herr] at hrun; cases hrun
      | none =>
        rw [herr] at hrun
        simp only at hrun
        obtain ⟨l1, l2⟩ := hitObj_left cfg h.heap o hr a.gcount a.count period
        have hpart := h.after_left (o' := { (hitObj cfg a.heap a.gcount a.count o r period).obj with
            lastDistance := some (M.val i j) }) ho hSo b1 b2 hrefs l1
            (hitObj cfg a.heap a.gcount a.count o r period).gcount l2
        obtain ⟨e', b', outB', r1, r2, r3, r4, r5, r6, r7⟩ := ih psB _ _ _ { outA with matchedO := outA.matchedO ++ [k] }
          outB hpart (by intro k' hk'; rw [World.after_keys]; exact hkA k' hk') hkB hps
          (fun q hq => hA q (by simp [hq])) hB (by
            simp only [List.filter_append, hm]
            rw [List.filter_cons_of_neg (by rw [hk]; simp), List.filter_nil, List.append_nil]) hrun
        refine ⟨e', b', outB', r1, r2, ?_, r4, r5, r6, r7⟩
        rw [r3, World.after_keys]

theorem condAddAll_same (n : Nat) (age : Int) (rs : List Ref) (hrs : ∀ r ∈ rs, S (lab r) = true) (past : List Ref)
    (hp : ∀ s ∈ past, S (lab s) = true) (h g : Ref → Det K L X) (H : HeapPart S lab h g) :
    (condAddAll n age g past rs).2 = (condAddAll n age h past rs).2 ∧
    HeapPart S lab (condAddAll n age h past rs).1 (condAddAll n age g past rs).1 := by
  induction rs generalizing past h g with
  | nil => exact ⟨rfl, H⟩
  | cons r rs ih =>
    unfold condAddAll
    rcases condAdd_same n age past r H hp with ⟨h1, h2⟩ | ⟨h', g', past', h1, h2, H', hsub⟩
    · rw [h1, h2]; exact ⟨rfl, H⟩
    · rw [h1, h2]
      simp only
      refine ih (fun r hr => hrs r (by simp [hr])) past' ?_ h' g' H'
      intro s hs
      rcases hsub s hs with h | rfl
      · exact hp s h
      · exact hrs s (by simp)

theorem condAddAll_left (n : Nat) (age : Int) (rs : List Ref) (hrs : ∀ r ∈ rs, S (lab r) = false) (past : List Ref)
    (h g : Ref → Det K L X) (H : HeapPart S lab h g) : HeapPart S lab (condAddAll n age h past rs).1 g := by
  induction rs generalizing past h with
  | nil => exact H
  | cons r rs ih =>
    unfold condAddAll
    cases hc : condAdd n age h past r with
    | none => exact H
    | some q =>
      exact ih (fun r hr => hrs r (by simp [hr])) q.2 q.1 (condAdd_left (past' := q.2) H (hrs r (by simp)) hc)

theorem condAddAll_sub (n : Nat) (age : Int) (rs : List Ref) (past : List Ref) (h : Ref → Det K L X) :
    ∀ s ∈ (condAddAll n age h past rs).2.1, s ∈ past ∨ s ∈ rs := by
  induction rs generalizing past h with
  | nil => exact fun s hs => Or.inl hs
  | cons r rs ih =>
    unfold condAddAll
    cases hc : condAdd n age h past r with
    | none => exact fun s hs => Or.inl hs
    | some q =>
      intro s hs
      rcases ih q.2 q.1 s hs with h | h
      · rcases condAdd_sub (past' := q.2) hc s h with h | rfl
        · exact Or.inl h
        · exact Or.inr (by simp)
      · exact Or.inr (by simp [h])

theorem mergeObj_refs (cfg : Cfg K L D F X) (h : Ref → Det K L X) {o oc : Obj K L D F} (ho : Refs S lab o)
    (hc : Refs S lab oc) (hl : S oc.label = S o.label) : Refs S lab (mergeObj cfg h o oc).2.1 := by
  unfold mergeObj Refs
  simp only
  refine ⟨hc.1.trans hl, fun r hr => ?_⟩
  rcases condAddAll_sub _ _ _ _ _ r hr with h | h
  · exact ho.2 r h
  · exact (hc.2 r h).trans hl

theorem mergeObj_part (cfg : Cfg K L D F X) {h h' : Ref → Det K L X} (H : HeapPart S lab h h')
    {o oc p pc : Obj K L D F} (hs : SameBut o p) (hsc : SameBut oc pc) (hl : S o.label = true)
    (hlc : S oc.label = true) (ho : Refs S lab o) (hoc : Refs S lab oc) :
    (mergeObj cfg h' p pc).2.2 = (mergeObj cfg h o oc).2.2 ∧
    HeapPart S lab (mergeObj cfg h o oc).1 (mergeObj cfg h' p pc).1 ∧
    SameBut (mergeObj cfg h o oc).2.1 (mergeObj cfg h' p pc).2.1 := by
  have e1 : p.past = o.past := by rw [hs]
  have e2 : p.age = o.age := by rw [hs]
  have e3 : pc.past = oc.past := by rw [hsc]
  obtain ⟨c1, c2⟩ := condAddAll_same cfg.pastLen o.age oc.past (fun r hr => (hoc.2 r hr).trans hlc) o.past
    (fun r hr => (ho.2 r hr).trans hl) h h' H
  unfold mergeObj
  rw [e1, e2, e3]
  refine ⟨by simp only [c1], c2, ?_⟩
  unfold SameBut at hs hsc ⊢
  simp only [c1]
  rw [hs, hsc]

theorem mergeObj_ids (cfg : Cfg K L D F X) (h : Ref → Det K L X) (o oc : Obj K L D F) (n m : Nat) :
    IdStep false n m o n m (mergeObj cfg h o oc).2.1 := by
  unfold IdStep mergeObj
  simp

theorem keys_remove {a b : World K L D F X} (h : Part S lab c e sk a b) {k : Nat} (hk : k ∈ b.keys)
    (ho : b.keys.map c = a.keys.filter sk) :
    (b.remove k).keys.map c = (a.remove (c k)).keys.filter sk := by
  rw [World.remove_keys, World.remove_keys, List.filter_filter]
  have : (a.keys.filter fun x => sk x && decide (x ≠ c k)) = (a.keys.filter sk).filter (fun x => decide (x ≠ c k)) := by
    rw [List.filter_filter]
    congr 1
    funext x
    rw [Bool.and_comm]
  rw [this, ← ho, List.filter_map]
  congr 1
  apply List.filter_congr
  intro j hj
  simp only [Function.comp, decide_eq_decide]
  exact ⟨fun h1 h2 => h1 (h.inj j hj k hk h2), fun h1 h2 => h1 (by rw [h2])⟩

theorem keys_remove_left {a b : World K L D F X} {k : Nat} (hk : sk k = false)
    (ho : b.keys.map c = a.keys.filter sk) : b.keys.map c = (a.remove k).keys.filter sk := by
  rw [World.remove_keys, List.filter_filter, ho]
  apply List.filter_congr
  intro j _
  by_cases e : j = k
  · subst e; simp [hk]
  · simp [e]

theorem mergeLoop_part (cfg : Cfg K L D F X) (thr : D) {M N : Mat D} {candsA candsB : List Nat}
    {keysA keysB : List Nat} {ρ γ : Nat → Nat} {sel : Nat → Bool}
    (hcand : ∀ i k, candsB[i]? = some k → candsA[ρ i]? = some (c k))
    (hkey : ∀ j k, keysB[j]? = some k → keysA[γ j]? = some (c k))
    (hval : ∀ i j, i < candsB.length → j < keysB.length → N.val i j = M.val (ρ i) (γ j))
    (hcn : candsA.Nodup) (hdisj : ∀ k ∈ candsA, ∀ k' ∈ keysA, k ≠ k')
    (psA psB : List (Nat × Nat)) (e : Nat → Nat) (a b : World K L D F X) (outA outB : StageOut Nat)
    (h : Part S lab c e sk a b) (hord : b.keys.map c = a.keys.filter sk)
    (hnd : (psA.map Prod.fst).Nodup)
    (hps : psB.map (Prod.map ρ γ) = psA.filter (fun p => sel p.1))
    (hA : ∀ p ∈ psA, ∃ kc k, candsA[p.1]? = some kc ∧ keysA[p.2]? = some k ∧ M.val p.1 p.2 < thr ∧
      sk kc = sel p.1 ∧ sk k = sel p.1 ∧ kc ∈ a.keys ∧ k ∈ a.keys)
    (hB : ∀ p ∈ psB, ∃ kc k, candsB[p.1]? = some kc ∧ keysB[p.2]? = some k ∧ kc ∈ b.keys ∧ k ∈ b.keys)
    {a' : World K L D F X} {outA' : StageOut Nat}
    (hrun : mergeLoop cfg thr M candsA keysA psA a outA = (a', .ok outA')) :
    ∃ e' b' outB', mergeLoop cfg thr N candsB keysB psB b outB = (b', .ok outB') ∧ Part S lab c e' sk a' b' ∧
      b'.keys.map c = a'.keys.filter sk := by
  induction psA generalizing psB e a b outA outB with
  | nil =>
    rw [List.filter_nil, List.map_eq_nil_iff] at hps
    subst hps
    unfold mergeLoop at hrun ⊢
    cases hrun
    exact ⟨e, b, outB, rfl, h, hord⟩
  | cons p psA ih =>
    obtain ⟨i, j⟩ := p
    obtain ⟨kc, k, hi, hj, hlt, hrc, hk, mc, mk⟩ := hA (i, j) (by simp)
    simp only at hi hj hlt hrc hk
    obtain ⟨oc, hoc⟩ := World.find_isSome_of_mem mc
    obtain ⟨o, ho⟩ := World.find_isSome_of_mem mk
    have hSo : S o.label = sel i := by rw [h.sk k o ho, hk]
    have hSoc : S oc.label = sel i := by rw [h.sk kc oc hoc, hrc]
    have hne : kc ≠ k := hdisj kc (List.mem_of_getElem? hi) k (List.mem_of_getElem? hj)
    rw [mergeLoop, hi, hj] at hrun
    simp only [hlt, if_true, ho, hoc] at hrun
    obtain ⟨b1, b2, _⟩ := mergeObj_basic cfg a.heap o oc
    have hrefs := mergeObj_refs cfg a.heap (h.refs k o ho) (h.refs kc oc hoc) (hSoc.trans hSo.symm)
    have hnd' : (psA.map Prod.fst).Nodup := (List.nodup_cons.mp hnd).2
    have hnoti : ∀ q ∈ psA, q.1 ≠ i := by
      intro q hq e
      exact (List.nodup_cons.mp hnd).1 (List.mem_map.mpr ⟨q, hq, e⟩)
    have ka : ∀ hp, ((a.after hp a.gcount a.count (mergeObj cfg a.heap o oc).2.1).remove kc).keys =
        a.keys.filter (fun x => decide (x ≠ kc)) := by
      intro hp
      rw [World.remove_keys, World.after_keys]
    have hA' : ∀ hp, ∀ p ∈ psA, ∃ kc' k', candsA[p.1]? = some kc' ∧ keysA[p.2]? = some k' ∧ M.val p.1 p.2 < thr ∧
      sk kc' = sel p.1 ∧ sk k' = sel p.1 ∧
        kc' ∈ ((a.after hp a.gcount a.count (mergeObj cfg a.heap o oc).2.1).remove kc).keys ∧
        k' ∈ ((a.after hp a.gcount a.count (mergeObj cfg a.heap o oc).2.1).remove kc).keys := by
      intro hp q hq
      obtain ⟨kc', k', h1, h2, h3, h4, h5, h6, h7⟩ := hA q (by simp [hq])
      refine ⟨kc', k', h1, h2, h3, h4, h5, ?_, ?_⟩
      · rw [ka, List.mem_filter]
        refine ⟨h6, ?_⟩
        simp only [ne_eq, decide_not, Bool.not_eq_eq_eq_not, Bool.not_true, decide_eq_false_iff_not]
        rintro rfl
        have := (List.getElem?_inj (i := q.1) (j := i) (List.getElem?_eq_some_iff.mp h1).1 hcn).mp (by rw [h1, hi])
        exact hnoti q hq this
      · rw [ka, List.mem_filter]
        refine ⟨h7, ?_⟩
        simp only [ne_eq, decide_not, Bool.not_eq_eq_eq_not, Bool.not_true, decide_eq_false_iff_not]
        rintro rfl
        exact hdisj k' (List.mem_of_getElem? hi) k' (List.mem_of_getElem? h2) rfl
    cases hs : sel i with
    | true =>
      rw [hs] at hrc hk hSo hSoc
      rw [List.filter_cons_of_pos (by exact hs)] at hps
      obtain ⟨q, qs, rfl, hq, hqs⟩ := map_eq_cons_of hps
      obtain ⟨i', j'⟩ := q
      simp only [Prod.map, Prod.mk.injEq] at hq
      obtain ⟨kcb, kb, di, dj, mcb, mkb⟩ := hB (i', j') (by simp)
      simp only at di dj
      have hi' : i' < candsB.length := (List.getElem?_eq_some_iff.mp di).1
      have hj' : j' < keysB.length := (List.getElem?_eq_some_iff.mp dj).1
      have er : c kcb = kc := by
        have := hcand _ _ di
        rw [hq.1, hi] at this
        exact (Option.some.inj this).symm
      have ek : c kb = k := by
        have := hkey _ _ dj
        rw [hq.2, hj] at this
        exact (Option.some.inj this).symm
      subst er ek
      have ev : N.val i' j' = M.val i j := by rw [hval i' j' hi' hj', hq.1, hq.2]
      obtain ⟨p, hp⟩ := World.find_isSome_of_mem mkb
      obtain ⟨pc, hpc⟩ := World.find_isSome_of_mem mcb
      obtain ⟨o0, ho0, hg⟩ := h.objs kb p hp
      rw [ho] at ho0
      cases ho0
      obtain ⟨oc0, hoc0, hgc⟩ := h.objs kcb pc hpc
      rw [hoc] at hoc0
      cases hoc0
      obtain ⟨g1, g2, g3⟩ := mergeObj_part cfg h.heap hg.same hgc.same hSo hSoc (h.refs _ o ho) (h.refs _ oc hoc)
      obtain ⟨p1, p2, _⟩ := mergeObj_basic cfg b.heap p pc
      rw [mergeLoop, di, dj]
      simp only [ev, hlt, if_true, hp, hpc, g1]
      cases herr : (mergeObj cfg a.heap o oc).2.2 with
      | some x => rw [herr] at hrun; cases hrun
      | none =>
        rw [herr] at hrun
        simp only at hrun ⊢
        have hpart := h.after hp ho b1 p1 b2 g3 hrefs g2 (mergeObj_ids cfg a.heap o oc a.count a.gcount)
          (mergeObj_ids cfg b.heap p pc b.count b.gcount)
        have mcb' : kcb ∈ (b.after (mergeObj cfg b.heap p pc).1 b.gcount b.count (mergeObj cfg b.heap p pc).2.1).keys := by
          rw [World.after_keys]; exact mcb
        have hpart' := hpart.remove mcb'
        have kbs : ∀ x, x ∈ ((b.after (mergeObj cfg b.heap p pc).1 b.gcount b.count
            (mergeObj cfg b.heap p pc).2.1).remove kcb).keys ↔ x ∈ b.keys ∧ x ≠ kcb := by
          intro x
          rw [World.remove_keys, World.after_keys, List.mem_filter]
          simp
        have hnoti' : ∀ q ∈ qs, ρ q.1 ≠ i := by
          intro q hq
          have : Prod.map ρ γ q ∈ qs.map (Prod.map ρ γ) := List.mem_map_of_mem hq
          rw [hqs] at this
          exact hnoti _ (List.mem_filter.mp this).1
        refine ih qs _ _ _ outA outB hpart' (keys_remove hpart mcb' (by
          rw [World.after_keys, World.after_keys]; exact hord)) hnd' hqs (hA' _) ?_ hrun
        intro q hq
        obtain ⟨kc', k', h1, h2, h3, h4⟩ := hB q (by simp [hq])
        refine ⟨kc', k', h1, h2, ?_, ?_⟩
        · refine (kbs kc').mpr ⟨h3, ?_⟩
          rintro rfl
          have h1' := hcand _ _ h1
          have := (List.getElem?_inj (i := ρ q.1) (j := i) (List.getElem?_eq_some_iff.mp h1').1 hcn).mp (by rw [h1', hi])
          exact hnoti' q hq this
        · refine (kbs k').mpr ⟨h4, ?_⟩
          rintro rfl
          exact hdisj _ (List.mem_of_getElem? hi) _ (List.mem_of_getElem? (hkey _ _ h2)) rfl
    | false =>
      rw [hs] at hrc hk hSo hSoc
      rw [List.filter_cons_of_neg (by rw [hs]; simp)] at hps
      cases herr : (mergeObj cfg a.heap o oc).2.2 with
      | some x => rw [herr] at hrun; cases hrun
      | none =>
        rw [herr] at hrun
        simp only at hrun
        have H' : HeapPart S lab (mergeObj cfg a.heap o oc).1 b.heap :=
          condAddAll_left _ _ _ (fun r hr => ((h.refs kc oc hoc).2 r hr).trans hSoc) _ _ _ h.heap
        have hpart := (h.after_left ho hSo b1 b2 hrefs H' a.gcount le_rfl).remove_left hrc
        exact ih psB _ _ _ outA outB hpart (keys_remove_left hrc (by rw [World.after_keys]; exact hord)) hnd' hps
          (hA' _) hB hrun

end

end Norfair
