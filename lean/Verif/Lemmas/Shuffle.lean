import Verif.Lemmas.PartUpdate
import Verif.Spec.Shuffle
import Mathlib.Data.List.Perm.Basic

/-! Two trackers that get the same detections in different orders. -/

set_option linter.unusedSectionVars false

namespace Norfair

open Norfair.Spec

variable {K L D F X : Type}

/-- positions in a list for the positions in a rearrangement of it -/
theorem perm_index {α : Type} {l m : List α} (h : l.Perm m) : ∃ σ : Nat → Nat,
    (∀ i < l.length, σ i < m.length) ∧ (∀ i < l.length, m[σ i]? = l[i]?) ∧
    (∀ i < l.length, ∀ j < l.length, σ i = σ j → i = j) ∧ (∀ i < m.length, ∃ j < l.length, σ j = i) := by
  induction h with
  | nil => exact ⟨id, by simp, by simp, by simp, by simp⟩
  | @cons x l m _ ih =>
    obtain ⟨σ, h1, h2, h3, h4⟩ := ih
    refine ⟨fun i => match i with
      | 0 => 0
      | i + 1 => σ i + 1, ?_, ?_, ?_, ?_⟩
    · rintro (_ | i) hi
      · simp
      · simp only [List.length_cons] at hi ⊢
        have := h1 i (by omega)
        omega
    · rintro (_ | i) hi
      · rfl
      · simp only [List.length_cons] at hi
        simpa using h2 i (by omega)
    · rintro (_ | i) hi (_ | j) hj he
      · rfl
      · simp at he
      · simp at he
      · simp only [List.length_cons] at hi hj
        have := h3 i (by omega) j (by omega) (by simpa using he)
        omega
    · rintro (_ | i) hi
      · exact ⟨0, by simp, rfl⟩
      · obtain ⟨j, hj, e⟩ := h4 i (by simpa using hi)
        exact ⟨j + 1, by simpa using hj, by simp [e]⟩
  | swap x y l =>
    refine ⟨fun i => match i with
      | 0 => 1
      | 1 => 0
      | i + 2 => i + 2, ?_, ?_, ?_, ?_⟩
    · rintro (_ | _ | i) hi <;> simp at hi ⊢ <;> omega
    · rintro (_ | _ | i) hi <;> simp
    · rintro (_ | _ | i) hi (_ | _ | j) hj he <;> simp at he ⊢ <;> omega
    · rintro (_ | _ | i) hi
      · exact ⟨1, by simp, rfl⟩
      · exact ⟨0, by simp, rfl⟩
      · exact ⟨i + 2, by simpa using hi, rfl⟩
  | @trans l m n _ _ ih1 ih2 =>
    obtain ⟨σ, h1, h2, h3, h4⟩ := ih1
    obtain ⟨τ, g1, g2, g3, g4⟩ := ih2
    refine ⟨fun i => τ (σ i), fun i hi => g1 _ (h1 i hi), fun i hi => (g2 _ (h1 i hi)).trans (h2 i hi),
      fun i hi j hj he => h3 i hi j hj (g3 _ (h1 i hi) _ (h1 j hj) he), ?_⟩
    intro i hi
    obtain ⟨j, hj, rfl⟩ := g4 i hi
    obtain ⟨k, hk, rfl⟩ := h4 j hj
    exact ⟨k, hk, rfl⟩

section
variable [LinearOrder K] [Zero K] [LinearOrder D] [OrderTop D] [Zero D] [DecidableEq L] {lab : Ref → L}
  {c e : Nat → Nat}

/-- all labels -/
abbrev allL : L → Bool := fun _ => true
/-- all objects -/
abbrev allK : Nat → Bool := fun _ => true

theorem picks_map {α β : Type} {l : List α} {m : List β} {g : α → β} {σ : Nat → Nat} {idx : List Nat} {as : List α}
    (h : Picks l idx as) (hσ : ∀ i ∈ idx, ∀ x, l[i]? = some x → m[σ i]? = some (g x)) :
    Picks m (idx.map σ) (as.map g) := by
  induction h with
  | nil => exact .nil
  | @cons i x idx as h1 _ ih =>
    exact .cons (hσ i (by simp) x h1) (ih (fun j hj y hy => hσ j (by simp [hj]) y hy))

theorem stageDet_perm {cfg : Cfg K L D F X} {f} (hf : cfg.dist = .scalar f) (hbl : Blind f) (period : Int)
    {a b : World K L D F X} (h : Part allL lab c e allK a b) {detsA detsB : List Ref} {keysA keysB : List Nat}
    (hkA : ∀ k ∈ keysA, k ∈ a.keys) (hkB : ∀ k ∈ keysB, k ∈ b.keys) (hkeys : (keysB.map c).Perm keysA)
    (hdets : detsB.Perm detsA)
    (hties : ∀ M, detDistances cfg a.heap (a.objects keysA) detsA = some M →
      ∀ i < detsA.length, ∀ j < keysA.length, ∀ i' < detsA.length, ∀ j' < keysA.length,
        (M.val i j).getD ⊤ < cfg.thr → (M.val i j).getD ⊤ = (M.val i' j').getD ⊤ → i = i' ∧ j = j')
    {a' : World K L D F X} {outA : StageOut Ref} (hrun : stageDet cfg period a keysA detsA = (a', .ok outA)) :
    ∃ e' b' outB, stageDet cfg period b keysB detsB = (b', .ok outB) ∧
      Part allL lab c e' allK a' b' ∧ a'.keys = a.keys ∧ b'.keys = b.keys ∧
      outB.unmatchedC.Perm outA.unmatchedC := by
  by_cases hd : detsA.length = 0
  · have : detsA = [] := List.length_eq_zero_iff.mp hd
    subst this
    have : detsB = [] := List.Perm.eq_nil hdets
    subst this
    unfold stageDet at hrun ⊢
    rw [if_pos (by rfl)] at hrun
    rw [if_pos (by rfl)]
    cases hrun
    exact ⟨e, b, _, rfl, h, rfl, rfl, .refl _⟩
  · have hdB : detsB.length ≠ 0 := by rw [hdets.length_eq]; exact hd
    have hlen : keysB.length = keysA.length := by rw [← hkeys.length_eq, List.length_map]
    obtain ⟨M, ps, hM, hn, hp⟩ := stageDet_inv hd hrun
    rw [stageDet_run hd hM hn hp] at hrun
    have hties := hties M hM
    obtain ⟨hMr, hMc, _⟩ := detDistances_spec hM
    rw [World.objects_length hkA] at hMc
    obtain ⟨ρ, ρ1, ρ2, ρ3, ρ4⟩ := perm_index hdets
    obtain ⟨γ, γ1, γ2, γ3, γ4⟩ := perm_index hkeys
    rw [List.length_map] at γ1 γ2 γ3 γ4
    have γ2' : ∀ j k, keysB[j]? = some k → keysA[γ j]? = some (c k) := by
      intro j k hj
      rw [γ2 j (List.getElem?_eq_some_iff.mp hj).1, List.getElem?_map, hj]
      rfl
    obtain ⟨N, hN, hNr, hNc, hNv⟩ : ∃ N, detDistances cfg b.heap (b.objects keysB) detsB = some N ∧
        N.rows = detsB.length ∧ N.cols = keysB.length ∧ ∀ i < detsB.length, ∀ j < keysB.length,
          N.val i j = M.val (ρ i) (γ j) := by
      unfold detDistances at hM ⊢
      rw [hf] at hM ⊢
      simp only at hM ⊢
      have := scalarDistances_pull (labC' := fun r => (b.heap r).label) (labO' := fun o : Obj K L D F => o.label)
        (f' := fun r o => f (b.heap r) (o.view b.heap)) (objsB := b.objects keysB) (candsB := detsB) (ρ := ρ) (γ := γ) (by
          intro i j r p hi hj
          have hi' := (List.getElem?_eq_some_iff.mp hi).1
          have hj' : j < keysB.length := by
            rw [← World.objects_length hkB]; exact (List.getElem?_eq_some_iff.mp hj).1
          rw [World.objects_getElem? hkB, List.getElem?_eq_getElem hj'] at hj
          obtain ⟨o, ho, hg⟩ := h.objs _ p hj
          refine ⟨r, o, by rw [ρ2 i hi']; exact hi, ?_, ?_, ?_, ?_⟩
          · rw [World.objects_getElem? hkA, γ2' j _ (List.getElem?_eq_getElem hj')]
            exact ho
          · rw [(h.heap r).2.1, (h.heap r).1]
          · rw [hg.same]
          · rw [(h.heap r).2.2 rfl]
            exact hbl _ _ _ (view_same h.heap hg.same hg.label (h.refs _ o ho))) hM
      rw [World.objects_length hkB] at this
      exact this
    have hnB : N.hasNan = false := by
      rw [hasNan_false]
      intro i hi j hj
      rw [hNr] at hi
      rw [hNc] at hj
      rw [hNv i hi j hj]
      exact hasNan_false.mp hn _ (by rw [hMr]; exact ρ1 i hi) _ (by rw [hMc]; exact γ1 j hj)
    have hNv' : ∀ i < detsB.length, ∀ j < keysB.length,
        (N.map (fun x => x.getD ⊤)).val i j = (M.map (fun x => x.getD ⊤)).val (ρ i) (γ j) := by
      intro i hi j hj
      show (N.val i j).getD ⊤ = (M.val _ _).getD ⊤
      rw [hNv i hi j hj]
    obtain ⟨psB, hpB, hmap⟩ := matchDetsAndObjs_pull (N := N.map (fun x => x.getD ⊤)) (ρ := ρ) (γ := γ) hp
      ⟨by
        intro i hi
        show _ < M.rows
        rw [hMr]
        exact ρ1 i (by rw [← hNr]; exact hi), by
        intro j hj
        show _ < M.cols
        rw [hMc]
        exact γ1 j (by rw [← hNc]; exact hj), by
        intro i hi i' hi'
        exact ρ3 i (by rw [← hNr]; exact hi) i' (by rw [← hNr]; exact hi'), by
        intro j hj j' hj'
        exact γ3 j (by rw [← hNc]; exact hj) j' (by rw [← hNc]; exact hj')⟩
      (fun i hi j hj => hNv' i (by rw [← hNr]; exact hi) j (by rw [← hNc]; exact hj)) (fun _ => true)
      (by
        intro i hi
        have hi' : i < detsA.length := by rw [← hMr]; exact hi
        obtain ⟨j, hj, e⟩ := ρ4 i hi'
        exact ⟨fun _ => ⟨j, by show _ < N.rows; rw [hNr]; exact hj, e⟩, fun _ => rfl⟩)
      (by
        intro i _ j hj _
        have hj' : j < keysA.length := by rw [← hMc]; exact hj
        obtain ⟨j', hj', e⟩ := γ4 j hj'
        exact ⟨fun _ => ⟨j', by show _ < N.cols; rw [hNc]; exact hj', e⟩, fun _ => rfl⟩)
      (by
        intro i hi j hj i' hi' j' hj' hlt hpre
        have hi : i < detsB.length := by rw [← hNr]; exact hi
        have hi' : i' < detsB.length := by rw [← hNr]; exact hi'
        have hj : j < keysB.length := by rw [← hNc]; exact hj
        have hj' : j' < keysB.length := by rw [← hNc]; exact hj'
        unfold Precedes at hpre ⊢
        simp only at hpre ⊢
        rw [hNv' i hi j hj, hNv' i' hi' j' hj']
        rcases hpre with h1 | ⟨h1, _⟩
        · exact Or.inl h1
        · obtain ⟨e1, e2⟩ := hties _ (ρ1 i hi) _ (γ1 j hj) _ (ρ1 i' hi') _ (γ1 j' hj') hlt h1
          rw [ρ3 i hi i' hi' e1, γ3 j hj j' hj' e2]
          exact Or.inr ⟨rfl, le_refl _⟩)
    have hgA := matchReturns_greedy (thr := cfg.thr) (fill := cfg.fill) ⟨_, hp⟩
    have hgB := matchReturns_greedy (thr := cfg.thr) (fill := cfg.fill) ⟨_, hpB⟩
    have hinB : ∀ p ∈ psB, p.1 < detsB.length ∧ p.2 < keysB.length := by
      intro p hp
      have := hgB.inRange p hp
      exact ⟨by rw [← hNr]; exact this.1, by rw [← hNc]; exact this.2⟩
    have hinA : ∀ p ∈ ps, ∃ r k, detsA[p.1]? = some r ∧ keysA[p.2]? = some k ∧
        (M.map (fun x => x.getD ⊤)).val p.1 p.2 < cfg.thr ∧ allL (lab r) = true ∧ allK k = true := by
      intro p hp
      have hr := hgA.inRange p hp
      exact ⟨_, _, List.getElem?_eq_getElem (by rw [← hMr]; exact hr.1),
        List.getElem?_eq_getElem (by rw [← hMc]; exact hr.2), hgA.below p hp, rfl, rfl⟩
    have hA1 := mins_spec cfg.thr (M.map (fun x => x.getD ⊤)) keysA a
    have hB1 := mins_spec cfg.thr (N.map (fun x => x.getD ⊤)) keysB b
    obtain ⟨e', b', outB, r1, r2, r3, r4, r5, r6, r7, r8, r9, r10, r11⟩ := hitLoop_part cfg cfg.thr period
      (N := N.map (fun x => x.getD ⊤)) (sel := fun _ => true)
      (fun i r hi => by rw [ρ2 i (List.getElem?_eq_some_iff.mp hi).1]; exact hi) γ2'
      (fun i j hi hj => hNv' i hi j hj) ps psB e _ _ _
      ⟨unmatchedOf detsB (psB.map Prod.fst), [], unmatchedOf keysB (psB.map Prod.snd)⟩ (h.mins hA1 hB1)
      (by rw [hA1.1]; exact hkA) (by rw [hB1.1]; exact hkB) hmap hinA hinB rfl hrun
    refine ⟨e', b', outB, ?_, r2, by rw [r3, hA1.1], by rw [r4, hB1.1], ?_⟩
    · rw [stageDet_run hdB hN hnB hpB]
      exact r1
    · rw [r9, r7]
      obtain ⟨as, pB⟩ : ∃ as, Picks detsB (psB.map Prod.fst) as := ⟨_, picks_of_lt (by
        intro i hi
        obtain ⟨p, hp, rfl⟩ := List.mem_map.mp hi
        exact (hinB p hp).1)⟩
      have pA : Picks detsA (ps.map Prod.fst) as := by
        have := picks_map (g := id) (σ := ρ) pB (m := detsA) (by
          intro i hi x hx
          obtain ⟨p, hp, rfl⟩ := List.mem_map.mp hi
          rw [ρ2 _ (hinB p hp).1]
          exact hx)
        rw [List.map_id] at this
        have e1 : (psB.map Prod.fst).map ρ = ps.map Prod.fst := by
          have := congrArg (List.map Prod.fst) hmap
          rw [List.filter_true] at this
          rw [← this, List.map_map, List.map_map]
          rfl
        rwa [e1] at this
      have q1 := pA.perm hgA.rowsNodup (by
        intro i hi
        obtain ⟨p, hp, rfl⟩ := List.mem_map.mp hi
        rw [← hMr]
        exact (hgA.inRange p hp).1)
      have q2 := pB.perm hgB.rowsNodup (by
        intro i hi
        obtain ⟨p, hp, rfl⟩ := List.mem_map.mp hi
        exact (hinB p hp).1)
      exact (List.perm_append_left_iff _).mp ((q2.trans hdets).trans q1.symm)

/-! ### Creating objects -/

/-- the ages of the new detections are set -/
def aged (h : Ref → Det K L X) (rs : List Ref) : Ref → Det K L X :=
  fun r => if r ∈ rs then { h r with age := some 0 } else h r

theorem newObj_eq_of (cfg : Cfg K L D F X) {a b : World K L D F X} {r : Ref} {age : Option Int}
    (hh : b.heap r = { a.heap r with age := age }) {period : Int} (hp : period ≤ cfg.initDelay)
    (ct : Option (CoordTrans K)) :
    newObj cfg b r period ct = { newObj cfg a r period ct with initId := b.initCount + 1 } := by
  unfold newObj
  rw [hh]
  simp only [hp, if_true]
  cases ct <;> rfl

theorem foldl_create_find (cfg : Cfg K L D F X) {period : Int} (hp : period ≤ cfg.initDelay)
    (ct : Option (CoordTrans K)) (rs : List Ref) (w : World K L D F X) (hb : ∀ k ∈ w.keys, k ≤ w.initCount) :
    (rs.foldl (fun w r => createObj cfg w r period ct) w).heap = aged w.heap rs ∧
    (rs.foldl (fun w r => createObj cfg w r period ct) w).gcount = w.gcount ∧
    (rs.foldl (fun w r => createObj cfg w r period ct) w).count = w.count ∧
    (rs.foldl (fun w r => createObj cfg w r period ct) w).initCount = w.initCount + rs.length ∧
    (rs.foldl (fun w r => createObj cfg w r period ct) w).keys =
      w.keys ++ (List.range rs.length).map (fun i => w.initCount + 1 + i) ∧
    (∀ k ≤ w.initCount, (rs.foldl (fun w r => createObj cfg w r period ct) w).find k = w.find k) ∧
    (∀ i r, rs[i]? = some r → (rs.foldl (fun w r => createObj cfg w r period ct) w).find (w.initCount + 1 + i) =
      some { newObj cfg w r period ct with initId := w.initCount + 1 + i }) := by
  induction rs generalizing w with
  | nil =>
    refine ⟨?_, rfl, rfl, rfl, ?_, fun _ _ => rfl, ?_⟩
    · funext r; simp [aged]
    · simp
    · intro i r hr; simp at hr
  | cons r rs ih =>
    rw [List.foldl_cons]
    have hb' : ∀ k ∈ (createObj cfg w r period ct).keys, k ≤ (createObj cfg w r period ct).initCount := by
      rw [createObj_keys]
      intro k hk
      rw [createObj_eq]
      simp only
      rcases List.mem_append.mp hk with hk | hk
      · have := hb k hk; omega
      · rw [List.mem_singleton.mp hk]
    obtain ⟨h1, h2, h3, h4, h5, h6, h7⟩ := ih _ hb'
    have e1 : (createObj cfg w r period ct).heap = setAge w.heap r 0 := by rw [createObj_eq]
    have e2 : (createObj cfg w r period ct).gcount = w.gcount := by rw [createObj_eq]; simp [hp]
    have e3 : (createObj cfg w r period ct).count = w.count := by rw [createObj_eq]; simp [hp]
    have e4 : (createObj cfg w r period ct).initCount = w.initCount + 1 := by rw [createObj_eq]
    refine ⟨?_, by rw [h2, e2], by rw [h3, e3], by rw [h4, e4, List.length_cons]; omega, ?_, ?_, ?_⟩
    · rw [h1, e1]
      funext s
      unfold aged setAge
      by_cases hs : s = r
      · subst hs
        by_cases hm : s ∈ rs <;> simp [hm]
      · by_cases hm : s ∈ rs <;> simp [hm, hs]
    · rw [h5, createObj_keys, e4, List.length_cons, List.range_succ_eq_map, List.map_cons, List.map_map, List.append_assoc]
      congr 1
      simp only [List.singleton_append, Nat.add_zero, List.cons.injEq, true_and]
      apply List.map_congr_left
      intro i _
      simp only [Function.comp]
      omega
    · intro k hk
      rw [h6 k (by rw [e4]; omega)]
      exact find_createObj_ne cfg w r period ct (by omega)
    · intro i s hs
      cases i with
      | zero =>
        simp only [List.getElem?_cons_zero, Option.some.injEq] at hs
        subst hs
        rw [Nat.add_zero, h6 _ (by rw [e4]), find_createObj_new cfg hb]
        have : (newObj cfg w r period ct).initId = w.initCount + 1 := by
          obtain ⟨g, hg⟩ := newObj_fields cfg w r period ct
          rw [hg]; rfl
        rw [← this]
      | succ i =>
        simp only [List.getElem?_cons_succ] at hs
        have := h7 i s hs
        rw [e4] at this
        rw [show w.initCount + 1 + (i + 1) = w.initCount + 1 + 1 + i by omega, this]
        obtain ⟨age, ha⟩ : ∃ age, (createObj cfg w r period ct).heap s = { w.heap s with age := age } := by
          rw [e1]
          unfold setAge
          by_cases hsr : s = r
          · subst hsr; exact ⟨some 0, by simp⟩
          · exact ⟨(w.heap s).age, by simp [hsr]⟩
        rw [newObj_eq_of cfg ha hp ct]

theorem part_create_perm (cfg : Cfg K L D F X) {period : Int} (hp : period ≤ cfg.initDelay)
    (ct : Option (CoordTrans K)) {rsA rsB : List Ref} (hrs : rsB.Perm rsA) {a b : World K L D F X}
    (h : Part allL lab c e allK a b) (hord : (b.keys.map c).Perm a.keys) :
    ∃ c', Part allL lab c' e allK (rsA.foldl (fun w r => createObj cfg w r period ct) a)
        (rsB.foldl (fun w r => createObj cfg w r period ct) b) ∧
      ((rsB.foldl (fun w r => createObj cfg w r period ct) b).keys.map c').Perm
        (rsA.foldl (fun w r => createObj cfg w r period ct) a).keys := by
  obtain ⟨a1, a2, a3, a4, a5, a6, a7⟩ := foldl_create_find cfg hp ct rsA a h.boundA
  obtain ⟨b1, b2, b3, b4, b5, b6, b7⟩ := foldl_create_find cfg hp ct rsB b h.boundB
  obtain ⟨σ, σ1, σ2, σ3, σ4⟩ := perm_index hrs
  have hlen := hrs.length_eq
  set A := rsA.foldl (fun w r => createObj cfg w r period ct) a with hA
  set B := rsB.foldl (fun w r => createObj cfg w r period ct) b with hB
  let c' : Nat → Nat := fun k => if k ≤ b.initCount then c k else a.initCount + 1 + σ (k - (b.initCount + 1))
  have hold : ∀ k ≤ b.initCount, c' k = c k := fun k hk => by simp only [c', hk, if_true]
  have hnew : ∀ i, c' (b.initCount + 1 + i) = a.initCount + 1 + σ i := by
    intro i
    simp only [c', show ¬ (b.initCount + 1 + i ≤ b.initCount) by omega, if_false]
    congr 2
    omega
  have hkB : ∀ k, k ∈ B.keys ↔ k ∈ b.keys ∨ ∃ i < rsB.length, k = b.initCount + 1 + i := by
    intro k
    rw [b5, List.mem_append, List.mem_map]
    simp only [List.mem_range, eq_comm]
  have hkA : ∀ k, k ∈ A.keys ↔ k ∈ a.keys ∨ ∃ i < rsA.length, k = a.initCount + 1 + i := by
    intro k
    rw [a5, List.mem_append, List.mem_map]
    simp only [List.mem_range, eq_comm]
  have hnd : ∀ (l : List Nat) (n m : Nat), l.Nodup → (∀ k ∈ l, k ≤ n) →
      (l ++ (List.range m).map (fun i => n + 1 + i)).Nodup := by
    intro l n m hl hb
    refine List.Nodup.append hl ?_ ?_
    · exact List.Nodup.map (fun i j hij => by simpa using hij) List.nodup_range
    · intro x hx hx'
      have := hb x hx
      obtain ⟨i, _, rfl⟩ := List.mem_map.mp hx'
      omega
  have hcle : ∀ k ∈ b.keys, c k ≤ a.initCount := fun k hk => h.boundA _ (h.mem_a hk)
  refine ⟨c', ⟨?_, ?_, ?_, ?_, ?_, ?_, ?_, ?_, fun _ _ _ => rfl, fun _ _ _ => ⟨rfl, fun _ _ => rfl⟩, ?_, ?_, ?_, ?_⟩, ?_⟩
  · rw [a1, b1]
    intro r
    unfold aged
    simp only [hrs.mem_iff]
    obtain ⟨l1, l2, l3⟩ := h.heap r
    split
    · exact ⟨l1, l2, fun _ => by rw [l3 rfl]⟩
    · exact ⟨l1, l2, fun _ => l3 rfl⟩
  · rw [a5]; exact hnd _ _ _ h.nodupA h.boundA
  · rw [b5]; exact hnd _ _ _ h.nodupB h.boundB
  · intro k hk
    rw [a4]
    rcases (hkA k).mp hk with hk | ⟨i, hi, rfl⟩
    · have := h.boundA k hk; omega
    · omega
  · intro k hk
    rw [b4]
    rcases (hkB k).mp hk with hk | ⟨i, hi, rfl⟩
    · have := h.boundB k hk; omega
    · omega
  · intro k hk k' hk' he
    rcases (hkB k).mp hk with hk | ⟨i, hi, rfl⟩ <;> rcases (hkB k').mp hk' with hk' | ⟨i', hi', rfl⟩
    · rw [hold k (h.boundB k hk), hold k' (h.boundB k' hk')] at he
      exact h.inj k hk k' hk' he
    · rw [hold k (h.boundB k hk), hnew] at he
      have := hcle k hk
      omega
    · rw [hold k' (h.boundB k' hk'), hnew] at he
      have := hcle k' hk'
      omega
    · rw [hnew, hnew] at he
      rw [σ3 i hi i' hi' (by omega)]
  · intro k p hpk
    rcases (hkB k).mp (World.mem_keys_of_find hpk) with hk | ⟨i, hi, rfl⟩
    · have hle := h.boundB k hk
      rw [b6 k hle] at hpk
      obtain ⟨o, ho, hg⟩ := h.objs k p hpk
      exact ⟨o, by rw [hold k hle, a6 _ (hcle k hk)]; exact ho, hg⟩
    · rw [b7 i _ (List.getElem?_eq_getElem hi)] at hpk
      cases hpk
      rw [hnew, a7 (σ i) rsB[i] (by rw [σ2 i hi, List.getElem?_eq_getElem hi])]
      refine ⟨_, rfl, rfl, ?_, ?_, ?_⟩
      · have := newObj_same cfg (a := a) (b := b) (r := rsB[i]) ((h.heap _).2.2 rfl) period ct
        unfold SameBut at this ⊢
        rw [this]
      · obtain ⟨i1, _⟩ := newObj_ids cfg a rsB[i] period ct
        obtain ⟨i2, _⟩ := newObj_ids cfg b rsB[i] period ct
        simp only
        rw [i1, i2]
        simp [hp]
      · intro _
        obtain ⟨_, i1⟩ := newObj_ids cfg a rsB[i] period ct
        obtain ⟨_, i2⟩ := newObj_ids cfg b rsB[i] period ct
        simp only
        rw [i1, i2]
        simp [hp]
  · intro k o ho _
    rcases (hkA k).mp (World.mem_keys_of_find ho) with hk | ⟨i, hi, rfl⟩
    · have hle := h.boundA k hk
      rw [a6 k hle] at ho
      obtain ⟨k', hk', e⟩ := h.all k o ho rfl
      exact ⟨k', (hkB k').mpr (Or.inl hk'), by rw [hold k' (h.boundB k' hk')]; exact e⟩
    · obtain ⟨j, hj, rfl⟩ := σ4 i hi
      exact ⟨b.initCount + 1 + j, (hkB _).mpr (Or.inr ⟨j, hj, rfl⟩), hnew j⟩
  · intro k p hpk i hi
    rw [b3]
    rcases (hkB k).mp (World.mem_keys_of_find hpk) with hk | ⟨j, hj, rfl⟩
    · rw [b6 k (h.boundB k hk)] at hpk
      exact h.idle k p hpk i hi
    · rw [b7 j _ (List.getElem?_eq_getElem hj)] at hpk
      cases hpk
      obtain ⟨i2, _⟩ := newObj_ids cfg b rsB[j] period ct
      simp only at hi
      rw [i2] at hi
      simp [hp] at hi
  · rw [b3]; exact h.emono
  · rw [b3, a3]; exact h.ebound
  · rw [b3, a3, b2, a2]; exact h.eall
  · rw [a5, b5, List.map_append, List.map_map]
    refine List.Perm.append ?_ ?_
    · rw [List.map_congr_left (fun k hk => hold k (h.boundB k hk))]
      exact hord
    · have : (List.range rsB.length).map (c' ∘ fun i => b.initCount + 1 + i) =
          ((List.range rsB.length).map σ).map fun i => a.initCount + 1 + i := by
        rw [List.map_map]
        apply List.map_congr_left
        intro i _
        exact hnew i
      rw [this]
      apply List.Perm.map
      rw [List.perm_ext_iff_of_nodup]
      · intro i
        rw [List.mem_map, List.mem_range]
        constructor
        · rintro ⟨j, hj, rfl⟩
          exact σ1 j (List.mem_range.mp hj)
        · intro hi
          obtain ⟨j, hj, e⟩ := σ4 i hi
          exact ⟨j, List.mem_range.mpr hj, e⟩
      · refine List.Nodup.map_on ?_ List.nodup_range
        intro i hi j hj he
        exact σ3 i (List.mem_range.mp hi) j (List.mem_range.mp hj) he
      · exact List.nodup_range

/-! ### `update` -/

theorem keysWhere_perm {a b : World K L D F X} (h : Part allL lab c e allK a b) {keysA keysB : List Nat}
    (hkB : ∀ k ∈ keysB, k ∈ b.keys) (hkeys : (keysB.map c).Perm keysA) (p : Obj K L D F → Bool)
    (hp : ∀ o q, Good allL e o q → p q = p o) :
    ((b.keysWhere keysB p).map c).Perm (a.keysWhere keysA p) := by
  unfold World.keysWhere
  refine (List.Perm.of_eq ?_).trans (hkeys.filter _)
  rw [List.filter_map]
  congr 1
  apply List.filter_congr
  intro k hk
  simp only [Function.comp]
  obtain ⟨q, hq⟩ := World.find_isSome_of_mem (hkB k hk)
  obtain ⟨o, ho, hg⟩ := h.objs k q hq
  rw [hq, ho]
  exact hp o q hg

theorem timeless_blind {f : Det K L X → ObjView K L D F X → Option (Option D)} (h : Timeless f) : Blind f := by
  intro d v u hv
  refine h d d v u rfl hv.obj ?_ ?_
  · rw [hv.last]; rfl
  · rw [hv.past]
    exact List.forall₂_same.mpr fun _ _ => rfl

theorem AgesOnly.ageBut {h g : Ref → Det K L X} (ha : AgesOnly h g) (r : Ref) : AgeBut (h r) (g r) := by
  obtain ⟨⟨x, hx⟩, _⟩ := ha r
  unfold AgeBut
  rw [hx]

/-- no ties in the matrix of a stage -/
theorem noTies_stage {cfg : Cfg K L D F X} {f} (hf : cfg.dist = .scalar f) (ht : Timeless f) {heap0 : Ref → Det K L X}
    {objs : List (Obj K L D F)} {dets dets0 : List Ref} (hnt : NoTies f cfg.thr heap0 objs dets0)
    (hsub : ∀ r ∈ dets, r ∈ dets0) (hnd : dets.Nodup) {w : World K L D F X} (ha : AgesOnly heap0 w.heap)
    {keys : List Nat} (hkn : keys.Nodup) (init : Bool)
    (hk : ∀ k ∈ keys, ∃ o ∈ objs, w.find k = some o ∧ o.initId = k ∧ o.isInit = init) {M : Mat (Option D)}
    (hM : detDistances cfg w.heap (w.objects keys) dets = some M) :
    ∀ i < dets.length, ∀ j < keys.length, ∀ i' < dets.length, ∀ j' < keys.length,
      (M.val i j).getD ⊤ < cfg.thr → (M.val i j).getD ⊤ = (M.val i' j').getD ⊤ → i = i' ∧ j = j' := by
  have hkw : ∀ k ∈ keys, k ∈ w.keys := by
    intro k hk'
    obtain ⟨o, _, ho, _⟩ := hk k hk'
    exact World.mem_keys_of_find ho
  have hv : ∀ i (hi : i < dets.length) j (hj : j < keys.length), (M.val i j).getD ⊤ < cfg.thr → ∃ o ∈ objs, o.initId = keys[j] ∧
      o.isInit = init ∧ (heap0 dets[i]).label = o.label ∧
      f (heap0 dets[i]) (o.view heap0) = some (some ((M.val i j).getD ⊤)) := by
    intro i hi j hj hlt
    obtain ⟨o, ho, hfind, hid, hinit⟩ := hk keys[j] (List.getElem_mem hj)
    refine ⟨o, ho, hid, hinit, ?_⟩
    have e1 : dets[i]? = some dets[i] := List.getElem?_eq_getElem hi
    have e2 : (w.objects keys)[j]? = some o := by
      rw [World.objects_getElem? hkw, List.getElem?_eq_getElem hj]; exact hfind
    have hfeq : f (w.heap dets[i]) (o.view w.heap) = f (heap0 dets[i]) (o.view heap0) := by
      refine ht _ _ _ _ (ha.ageBut _) rfl (ha.ageBut _) ?_
      show List.Forall₂ AgeBut (o.past.map heap0) (o.past.map w.heap)
      rw [List.forall₂_map_left_iff, List.forall₂_map_right_iff]
      exact List.forall₂_same.mpr fun r _ => ha.ageBut r
    unfold detDistances at hM
    rw [hf] at hM
    simp only at hM
    unfold scalarDistances at hM
    simp only at hM
    split at hM
    · cases hM
    · rename_i hany
      cases hM
      simp only [e1, e2] at hlt ⊢
      by_cases hl : (w.heap dets[i]).label = o.label
      · refine ⟨by rw [← hl]; exact (ha.label _).symm, ?_⟩
        simp only [hl, if_true] at hlt ⊢
        rw [← hfeq]
        cases hx : f (w.heap dets[i]) (o.view w.heap) with
        | none =>
          exfalso
          apply hany
          simp only [List.any_eq_true]
          exact ⟨dets[i], List.getElem_mem hi, o, List.mem_of_getElem? e2, by simp [hl, hx]⟩
        | some y =>
          rw [hx] at hlt
          cases y with
          | none => simp at hlt
          | some d => simp
      · simp [hl] at hlt
  intro i hi j hj i' hi' j' hj' hlt heq
  obtain ⟨o, ho, h1, h2, h3, h4⟩ := hv i hi j hj hlt
  obtain ⟨o', ho', h1', h2', h3', h4'⟩ := hv i' hi' j' hj' (by rw [← heq]; exact hlt)
  rw [← heq] at h4'
  obtain ⟨e1, e2⟩ := hnt _ (hsub _ (List.getElem_mem hi)) _ (hsub _ (List.getElem_mem hi')) o ho o' ho' _ (by rw [h2, h2'])
    h3 h3' h4 h4' hlt
  rw [h1, h1'] at e2
  exact ⟨(List.Nodup.getElem_inj_iff hnd).mp e1, (List.Nodup.getElem_inj_iff hkn).mp e2⟩

theorem updateCore_shuffle {cfg : Cfg K L D F X} {f} (hf : cfg.dist = .scalar f) (ht : Timeless f) (hr : cfg.reid = none)
    {a b : World K L D F X} (h : Part allL lab c e allK a b) (hord : (b.keys.map c).Perm a.keys) {dets dets' : List Ref}
    (hdets : dets'.Perm dets) (hnd : dets.Nodup) {period : Int} (hp : period ≤ cfg.initDelay)
    {ct : Option (CoordTrans K)} (hnt : NoTies f cfg.thr a.heap (advance cfg ct a).objs dets)
    {a' : World K L D F X} {actA : List (Obj K L D F)} (hrun : updateCore cfg a dets period ct = (a', .ok actA)) :
    ∃ c' e' b', updateCore cfg b dets' period ct = (b', .ok (activeObjects b')) ∧
      Part allL lab c' e' allK a' b' ∧ (b'.keys.map c').Perm a'.keys := by
  obtain ⟨a1, a2, a3, out1, out2, ks2, ks3, m3, T⟩ := updateCore_stages h.nodupA hrun
  have hsurv : ∀ o q, Good allL e o q → surv cfg q = surv cfg o := fun o q hg => surv_same cfg hg.same
  have h0 : Part allL lab c e allK (advance cfg ct a) (advance cfg ct b) :=
    h.step cfg ct
  have hord0 : ((advance cfg ct b).keys.map c).Perm (advance cfg ct a).keys := by
    rw [advance_keys' cfg ct h.nodupB, advance_keys' cfg ct h.nodupA]
    exact keysWhere_perm h (fun _ h => h) hord _ hsurv
  have hal : ((aliveKeys cfg b.objs).map c).Perm (aliveKeys cfg a.objs) := by
    rw [aliveKeys_eq, aliveKeys_eq, keysWhere_self h.nodupA, keysWhere_self h.nodupB]
    refine keysWhere_perm h (fun _ h => h) hord _ (fun o q hg => ?_)
    have := hg.same
    unfold SameBut at this
    rw [this]
    rfl
  have halB : ∀ k ∈ aliveKeys cfg b.objs, k ∈ (advance cfg ct b).keys := by
    intro k hk; rw [advance_keys]; exact aliveKeys_sub _ _ hk
  have kw : ∀ {w : World K L D F X} {ks p}, ∀ k ∈ w.keysWhere ks p, k ∈ w.keys := by
    intro w ks p k hk
    obtain ⟨_, o, ho, _⟩ := World.mem_keysWhere.mp hk
    exact World.mem_keys_of_find ho
  have hk1 : ((stage1Keys cfg ct b).map c).Perm (stage1Keys cfg ct a) :=
    keysWhere_perm h0 halB hal _ (fun o q hg => by rw [isInit_good hg])
  obtain ⟨m1, _, _, _, perm1, _, _, _, same1⟩ := stageDet_ok cfg period (advance cfg ct a) (stage1Keys cfg ct a)
    T.ks1Nodup dets kw T.s1
  obtain ⟨e1, b1, outB1, r1, h1, ka1, kb1, u1⟩ := stageDet_perm hf (timeless_blind ht) period h0 kw kw hk1 hdets
    (fun M hM => noTies_stage (w := advance cfg ct a) hf ht hnt (fun _ h => h) hnd (.refl _) T.ks1Nodup false (by
      intro k hk
      obtain ⟨_, o, ho, hi⟩ := World.mem_keysWhere.mp hk
      obtain ⟨q1, q2⟩ := World.find_some ho
      exact ⟨o, q1, ho, q2, by simpa using hi⟩) hM) T.s1
  have hk2 : ((b1.keysWhere (aliveKeys cfg b.objs) (fun o => o.isInit)).map c).Perm ks2 := by
    rw [T.ks2eq]
    exact keysWhere_perm h1 (by rw [kb1]; exact halB) hal _ (fun o q hg => isInit_good hg)
  have hnd2 : out1.unmatchedC.Nodup := by
    have := perm1.nodup_iff.mpr hnd
    exact (List.nodup_append.mp this).2.1
  have hsub2 : ∀ r ∈ out1.unmatchedC, r ∈ dets := fun r hr => perm1.mem_iff.mp (List.mem_append_right _ hr)
  obtain ⟨e2, b2, outB2, r2, h2, ka2, kb2, u2⟩ := stageDet_perm hf (timeless_blind ht) period h1
    (by rw [T.ks2eq]; exact kw) kw hk2 u1
    (fun M hM => noTies_stage (w := a1) hf ht hnt hsub2 hnd2 T.heap1 T.ks2Nodup true (by
      intro k hk
      have hk' := hk
      rw [T.ks2eq] at hk'
      obtain ⟨_, o1, ho1, hi1⟩ := World.mem_keysWhere.mp hk'
      have hka : k ∈ (advance cfg ct a).keys := by rw [← ka1]; exact World.mem_keys_of_find ho1
      obtain ⟨o, ho⟩ := World.find_isSome_of_mem hka
      have := same1 k o ho (fun hx => T.disj12 k hx hk)
      rw [this] at ho1
      obtain rfl := Option.some.inj ho1
      obtain ⟨q1, q2⟩ := World.find_some ho
      exact ⟨o, q1, this, q2, hi1⟩) hM) T.s2
  obtain ⟨out3, s3⟩ := T.s3
  unfold reidStage at s3
  rw [hr] at s3
  simp only at s3
  cases s3
  obtain ⟨c', h4, hord4⟩ := part_create_perm cfg hp ct u2 h2 (by rw [kb2, kb1, ka2, ka1]; exact hord0)
  rw [← T.s4] at h4 hord4
  refine ⟨c', e2, _, ?_, h4, hord4⟩
  unfold updateCore
  simp only
  rw [r1]
  simp only
  rw [r2]
  simp only
  unfold reidStage
  rw [hr]

end

end Norfair
