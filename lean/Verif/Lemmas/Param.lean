import Verif.Spec.Parametric
import Verif.Lemmas.Sim
import Verif.Lemmas.Matching

/-! `Tracker.update` on corresponding states with corresponding arguments. -/

set_option linter.unusedSectionVars false

namespace Norfair

open Spec

variable {K K' L L' D D' F F' X X' : Type} {R : Corr K K' L L' D D' F F' X X'}

/-- the filter of every object has one sensor per coordinate -/
def DimOk (fo : FilterOps K F) (w : World K L D F X) : Prop := ∀ o ∈ w.objs, fo.dimZ o.filter = o.dimZ

/-! ### Matching -/

theorem argmin_rel [LinearOrder D] [LinearOrder D'] {f : Nat → D} {g : Nat → D'}
    (h : ∀ i j, f i < f j ↔ g i < g j) (n : Nat) : argmin g n = argmin f n := by
  induction n with
  | zero => rfl
  | succ n ih => simp only [argmin, ih, h]

/-- corresponding matrices -/
structure MatRel (Q : D → D' → Prop) (M : Mat D) (N : Mat D') : Prop where
  rows : N.rows = M.rows
  cols : N.cols = M.cols
  val : ∀ i j, Q (M.val i j) (N.val i j)

/-- corresponding matrices, except for entries that are not below the threshold on either side -/
structure MatRel2 [LinearOrder D] [LinearOrder D'] (Q : D → D' → Prop) (thr : D) (thr' : D') (M : Mat D)
    (N : Mat D') : Prop where
  rows : N.rows = M.rows
  cols : N.cols = M.cols
  val : ∀ i j, Q (M.val i j) (N.val i j) ∨ (¬ M.val i j < thr ∧ ¬ N.val i j < thr')

theorem matchLoop_rel [LinearOrder D] [LinearOrder D'] {Q : D → D' → Prop}
    (hlt : ∀ a b x y, Q a x → Q b y → (a < b ↔ x < y)) {thr fill : D} {thr' fill' : D'}
    (ht : Q thr thr') (hf : Q fill fill' ∨ (¬ fill < thr ∧ ¬ fill' < thr')) (fuel : Nat) :
    ∀ (M : Mat D) (N : Mat D'), MatRel2 Q thr thr' M N → 0 < M.size →
    matchLoop thr' fill' fuel N = matchLoop thr fill fuel M := by
  induction fuel with
  | zero => intros; rfl
  | succ n ih =>
    intro M N h hsize
    have hfl : ∀ k, Q (M.flat k) (N.flat k) ∨ (¬ M.flat k < thr ∧ ¬ N.flat k < thr') := by
      intro k
      unfold Mat.flat
      rw [h.cols]
      exact h.val _ _
    have hiff : ∀ k, M.flat k < thr ↔ N.flat k < thr' := by
      intro k
      rcases hfl k with hq | ⟨h1, h2⟩
      · exact hlt _ _ _ _ hq ht
      · exact ⟨fun e => absurd e h1, fun e => absurd e h2⟩
    have hq : ∀ k, M.flat k < thr → Q (M.flat k) (N.flat k) := by
      intro k hk
      rcases hfl k with hq | ⟨h1, _⟩
      · exact hq
      · exact absurd hk h1
    have hs : N.size = M.size := by unfold Mat.size; rw [h.rows, h.cols]
    obtain ⟨hk, hM⟩ := argmin_spec M.flat M.size hsize
    obtain ⟨hk', hN⟩ := argmin_spec N.flat M.size hsize
    unfold matchLoop
    simp only
    rw [hs]
    by_cases hlt' : M.flat (argmin M.flat M.size) < thr
    · have ha : argmin N.flat M.size = argmin M.flat M.size := by
        have hle : N.flat (argmin N.flat M.size) < thr' := by
          have := (hiff _).mp hlt'
          rcases hN _ hk with h1 | ⟨h1, _⟩
          · exact h1.trans this
          · rw [h1]; exact this
        have q1 := hq _ hlt'
        have q2 := hq _ ((hiff _).mpr hle)
        rcases hM _ hk' with h1 | ⟨h1, l1⟩
        · have := (hlt _ _ _ _ q1 q2).mp h1
          rcases hN _ hk with h2 | ⟨h2, _⟩
          · exact absurd h2 (lt_asymm this)
          · rw [h2] at this; exact absurd this (lt_irrefl _)
        · rcases hN _ hk with h2 | ⟨h2, l2⟩
          · have := (hlt _ _ _ _ q2 q1).mpr h2
            rw [h1] at this
            exact absurd this (lt_irrefl _)
          · omega
      rw [ha, h.cols, if_pos hlt', if_pos ((hiff _).mp hlt')]
      rw [ih (M.blank _ _ fill) (N.blank _ _ fill') _ hsize]
      refine ⟨h.rows, h.cols, ?_⟩
      intro a b
      unfold Mat.blank
      simp only
      split
      · exact hf
      · exact h.val a b
    · rw [if_neg hlt', if_neg]
      intro e
      have := (hiff _).mpr e
      apply hlt'
      rcases hM _ hk' with h1 | ⟨h1, _⟩
      · exact h1.trans this
      · rw [h1]; exact this

theorem below_of_lt [LinearOrder D] [LinearOrder D'] {Q : D → D' → Prop}
    (hlt : ∀ a b x y, Q a x → Q b y → (a < b ↔ x < y)) {thr : D} {thr' : D'} (ht : Q thr thr') :
    Below Q thr thr' :=
  ⟨fun _ _ h => hlt _ _ _ _ h ht, fun _ _ _ _ h h' _ _ => hlt _ _ _ _ h h'⟩

theorem matchDetsAndObjs_rel [LinearOrder D] [LinearOrder D'] {Q : D → D' → Prop} {thr fill : D} {thr' fill' : D'}
    (hb : Below Q thr thr') (hf : Q fill fill' ∨ (¬ fill < thr ∧ ¬ fill' < thr')) {M : Mat D} {N : Mat D'}
    (h : MatRel Q M N) :
    matchDetsAndObjs thr' fill' N = matchDetsAndObjs thr fill M := by
  have hs : N.size = M.size := by unfold Mat.size; rw [h.rows, h.cols]
  unfold matchDetsAndObjs matchDetsAndObjsFuel
  rw [h.rows, h.cols, hs]
  split
  · rename_i hp
    refine matchLoop_rel (Q := fun a x => (Q a x ∧ a < thr) ∨ (a = thr ∧ x = thr')) ?_ (.inr ⟨rfl, rfl⟩) ?_ _ M N
      ⟨h.rows, h.cols, fun i j => ?_⟩ hp
    · rintro a b x y (⟨ha, ha'⟩ | ⟨rfl, rfl⟩) (⟨hb', hb''⟩ | ⟨rfl, rfl⟩)
      · exact hb.lt _ _ _ _ ha hb' ha' hb''
      · exact hb.thr _ _ ha
      · have := (hb.thr _ _ hb').mp hb''
        exact ⟨fun e => absurd e (lt_asymm hb''), fun e => absurd e (lt_asymm this)⟩
      · simp
    · rcases hf with hf | hf
      · by_cases h1 : fill < thr
        · exact .inl (.inl ⟨hf, h1⟩)
        · exact .inr ⟨h1, fun e => h1 ((hb.thr _ _ hf).mpr e)⟩
      · exact .inr hf
    · by_cases h1 : M.val i j < thr
      · exact .inl (.inl ⟨h.val i j, h1⟩)
      · exact .inr ⟨h1, fun e => h1 ((hb.thr _ _ (h.val i j)).mpr e)⟩
  · rfl

/-! ### Lists of objects -/

theorem find_rel {w : World K L D F X} {v : World K' L' D' F' X'} (h : R.Worlds w v) (k : Nat) :
    (w.find k = none ∧ v.find k = none) ∨
      ∃ o p, w.find k = some o ∧ v.find k = some p ∧ R.Objs o p := by
  unfold World.find
  have := h.objs
  generalize w.objs = a at this
  generalize v.objs = b at this
  induction this with
  | nil => left; exact ⟨rfl, rfl⟩
  | @cons o p l m hop _ ih =>
    have hid : p.initId = o.initId := hop.initId
    by_cases hk : o.initId = k
    · right
      exact ⟨o, p, by simp [hk], by simp [hid, hk], hop⟩
    · simpa [hid, hk] using ih

theorem put_rel {w : World K L D F X} {v : World K' L' D' F' X'} (h : R.Worlds w v)
    {o : Obj K L D F} {p : Obj K' L' D' F'} (hop : R.Objs o p) : R.Worlds (w.put o) (v.put p) := by
  refine ⟨h.heap, h.gcount, h.count, h.initCount, ?_⟩
  simp only [World.put, List.forall₂_map_left_iff, List.forall₂_map_right_iff]
  refine h.objs.imp ?_
  intro a b hab
  rw [hop.initId, hab.initId]
  by_cases hk : a.initId = o.initId
  · simp only [hk, if_true]; exact hop
  · simp only [hk, if_false]; exact hab

theorem objects_rel {w : World K L D F X} {v : World K' L' D' F' X'} (h : R.Worlds w v) (ks : List Nat) :
    List.Forall₂ R.Objs (w.objects ks) (v.objects ks) := by
  unfold World.objects
  induction ks with
  | nil => exact .nil
  | cons k ks ih =>
    rcases find_rel h k with ⟨h1, h2⟩ | ⟨o, p, h1, h2, hop⟩
    · simpa [h1, h2] using ih
    · simp only [List.filterMap_cons, h1, h2]
      exact .cons hop ih

theorem objects_dim {fo : FilterOps K F} {w : World K L D F X} (h : DimOk fo w) (ks : List Nat) :
    ∀ o ∈ w.objects ks, fo.dimZ o.filter = o.dimZ := by
  intro o ho
  obtain ⟨k, _, hk⟩ := List.mem_filterMap.mp ho
  exact h o (List.mem_of_find?_eq_some hk)

theorem keysWhere_rel {w : World K L D F X} {v : World K' L' D' F' X'} (h : R.Worlds w v) (ks : List Nat)
    {q : Obj K L D F → Bool} {q' : Obj K' L' D' F' → Bool} (hq : ∀ o p, R.Objs o p → q' p = q o) :
    v.keysWhere ks q' = w.keysWhere ks q := by
  unfold World.keysWhere
  apply List.filter_congr
  intro k _
  rcases find_rel h k with ⟨h1, h2⟩ | ⟨o, p, h1, h2, hop⟩
  · simp [h1, h2]
  · simp only [h1, h2]
    exact hq _ _ hop

theorem filter_rel {A B : Type} {Q : A → B → Prop} {a : List A} {b : List B} (h : List.Forall₂ Q a b)
    {q : A → Bool} {q' : B → Bool} (hq : ∀ x y, Q x y → q' y = q x) :
    List.Forall₂ Q (a.filter q) (b.filter q') := by
  induction h with
  | nil => exact .nil
  | @cons x y l m hxy _ ih =>
    by_cases hx : q x = true
    · simp only [List.filter_cons, hq x y hxy, hx, if_true]
      exact .cons hxy ih
    · simp only [List.filter_cons, hq x y hxy, hx]
      exact ih

theorem countP_rel {A B : Type} {Q : A → B → Prop} {a : List A} {b : List B} (h : List.Forall₂ Q a b)
    {q : A → Bool} {q' : B → Bool} (hq : ∀ x y, Q x y → q' y = q x) (i : Nat) :
    (b.take i).countP q' = (a.take i).countP q := by
  induction h generalizing i with
  | nil => simp
  | @cons x y l m hxy _ ih =>
    cases i with
    | zero => rfl
    | succ i => simp only [List.take_succ_cons, List.countP_cons, ih, hq x y hxy]

/-- the position of an element among those with a property -/
theorem countP_take_lt_filter {A : Type} (l : List A) (q : A → Bool) {i : Nat} {a : A} (h : l[i]? = some a)
    (hq : q a = true) : (l.take i).countP q < (l.filter q).length := by
  rw [← List.countP_eq_length_filter]
  obtain ⟨hi, rfl⟩ := List.getElem?_eq_some_iff.mp h
  have hs : l = l.take i ++ l[i] :: l.drop (i + 1) := by simp
  conv_rhs => rw [hs]
  rw [List.countP_append, List.countP_cons, hq]
  simp

/-! ### Distances -/

theorem optRel_isNone {A B : Type} {Q : A → B → Prop} {a : Option A} {b : Option B} (h : Option.Rel Q a b) :
    b.isNone = a.isNone := by
  cases h <;> rfl

theorem optRel_getD {A B : Type} {Q : A → B → Prop} {a : Option A} {b : Option B} (h : Option.Rel Q a b)
    {x : A} {y : B} (hxy : Q x y) : Q (a.getD x) (b.getD y) := by
  cases h with
  | none => exact hxy
  | some h => exact h

theorem scalarDistances_rel [Top D] [Top D'] [DecidableEq L] [DecidableEq L'] {C C' O O' : Type}
    {labC : C → L} {labO : O → L} {labC' : C' → L'} {labO' : O' → L'} {f : C → O → Option (Option D)}
    {f' : C' → O' → Option (Option D')} {Ro : O → O' → Prop} {Rc : C → C' → Prop} {Q : D → D' → Prop}
    (htop : Q ⊤ ⊤) {objects : List O} {objects' : List O'} {cands : List C}
    {cands' : List C'} (ho : List.Forall₂ Ro objects objects') (hc : List.Forall₂ Rc cands cands')
    (hl : ∀ c c' o o', Rc c c' → Ro o o' → (labC c = labO o ↔ labC' c' = labO' o'))
    (hf : ∀ c c' o o', Rc c c' → Ro o o' → labC c = labO o → Option.Rel (Option.Rel Q) (f c o) (f' c' o')) :
    Option.Rel (MatRel (Option.Rel Q)) (scalarDistances labC labO f objects cands)
      (scalarDistances labC' labO' f' objects' cands') := by
  have hent : ∀ c c' o o', Rc c c' → Ro o o' → Option.Rel (Option.Rel Q)
      (if labC c = labO o then f c o else some (some ⊤))
      (if labC' c' = labO' o' then f' c' o' else some (some ⊤)) := by
    intro c c' o o' h1 h2
    by_cases h : labC c = labO o
    · rw [if_pos h, if_pos ((hl c c' o o' h1 h2).mp h)]
      exact hf c c' o o' h1 h2 h
    · rw [if_neg h, if_neg (fun e => h ((hl c c' o o' h1 h2).mpr e))]
      exact .some (.some htop)
  unfold scalarDistances
  simp only
  rw [forall2_any hc (p := fun c => objects.any fun o =>
    (if labC c = labO o then f c o else some (some (⊤ : D))).isNone) (by
      intro c c' hcc
      apply forall2_any ho
      intro o o' hoo
      exact optRel_isNone (hent c c' o o' hcc hoo))]
  split
  · exact .none
  · refine .some ⟨hc.length_eq.symm, ho.length_eq.symm, ?_⟩
    intro i j
    by_cases hi : i < cands.length
    · by_cases hj : j < objects.length
      · have hi' : i < cands'.length := hc.length_eq ▸ hi
        have hj' : j < objects'.length := ho.length_eq ▸ hj
        simp only
        rw [List.getElem?_eq_getElem hi, List.getElem?_eq_getElem hj, List.getElem?_eq_getElem hi',
          List.getElem?_eq_getElem hj']
        exact optRel_getD (hent cands[i] cands'[i] objects[j] objects'[j]
          (List.Forall₂.get hc hi hi') (List.Forall₂.get ho hj hj')) (.some htop)
      · simp only
        rw [List.getElem?_eq_none (by omega : objects.length ≤ j),
          List.getElem?_eq_none (by rw [← ho.length_eq]; omega : objects'.length ≤ j)]
        cases cands'[i]? <;> cases cands[i]? <;> exact .some htop
    · simp only
      rw [List.getElem?_eq_none (by omega : cands.length ≤ i),
        List.getElem?_eq_none (by rw [← hc.length_eq]; omega : cands'.length ≤ i)]
      exact .some htop

theorem vectorizedDistances_rel [Top D] [Top D'] {C C' O O' : Type}
    {strC : C → String} {strO : O → String} {strC' : C' → String} {strO' : O' → String}
    {ptsC : C → List K} {ptsO : O → List K} {ptsC' : C' → List K'} {ptsO' : O' → List K'}
    {f : List (List K) → List (List K) → Option (Mat (Option D))}
    {f' : List (List K') → List (List K') → Option (Mat (Option D'))} {Ro : O → O' → Prop}
    {Rc : C → C' → Prop} {Vc Vo : List K → List K' → Prop} {Q : D → D' → Prop}
    (htop : Q ⊤ ⊤) {objects : List O} {objects' : List O'} {cands : List C}
    {cands' : List C'} (ho : List.Forall₂ Ro objects objects') (hc : List.Forall₂ Rc cands cands')
    (hl : ∀ c c' o o', Rc c c' → Ro o o' → (strC c = strO o ↔ strC' c' = strO' o'))
    (hlc : ∀ c c' d d', Rc c c' → Rc d d' → (strC c = strC d ↔ strC' c' = strC' d'))
    (hpo : ∀ o o', Ro o o' → Vo (ptsO o) (ptsO' o')) (hpc : ∀ c c', Rc c c' → Vc (ptsC c) (ptsC' c'))
    (hf : ∀ A A' B B', List.Forall₂ Vc A A' → List.Forall₂ Vo B B' →
        Option.Rel (fun M N => ∀ i j, i < A.length → j < B.length →
          Option.Rel Q (M.val i j) (N.val i j)) (f A B) (f' A' B')) :
    Option.Rel (MatRel (Option.Rel Q)) (vectorizedDistances strC strO ptsC ptsO f objects cands)
      (vectorizedDistances strC' strO' ptsC' ptsO' f' objects' cands') := by
  have hlab : ∀ c c', Rc c c' → ∀ o o', Ro o o' →
      decide (strO' o' = strC' c') = decide (strO o = strC c) := by
    intro c c' hcc o o' hoo
    have := hl c c' o o' hcc hoo
    rw [decide_eq_decide, eq_comm, ← this, eq_comm]
  have hlabc : ∀ c c', Rc c c' → ∀ d d', Rc d d' →
      decide (strC' d' = strC' c') = decide (strC d = strC c) := by
    intro c c' hcc d d' hdd
    rw [decide_eq_decide, hlc d d' c c' hdd hcc]
  have hcall : ∀ c c', Rc c c' → Option.Rel (fun M N => ∀ i j,
      i < (cands.filter (fun d => strC d = strC c)).length →
      j < (objects.filter (fun o => strO o = strC c)).length → Option.Rel Q (M.val i j) (N.val i j))
      (f ((cands.filter (fun d => strC d = strC c)).map ptsC)
        ((objects.filter (fun o => strO o = strC c)).map ptsO))
      (f' ((cands'.filter (fun d => strC' d = strC' c')).map ptsC')
        ((objects'.filter (fun o => strO' o = strC' c')).map ptsO')) := by
    intro c c' hcc
    have h1 := filter_rel hc (q := fun d => decide (strC d = strC c))
      (q' := fun d => decide (strC' d = strC' c')) (hlabc c c' hcc)
    have h2 := filter_rel ho (q := fun o => decide (strO o = strC c))
      (q' := fun o => decide (strO' o = strC' c')) (hlab c c' hcc)
    have := hf ((cands.filter (fun d => strC d = strC c)).map ptsC)
        ((cands'.filter (fun d => strC' d = strC' c')).map ptsC')
        ((objects.filter (fun o => strO o = strC c)).map ptsO)
        ((objects'.filter (fun o => strO' o = strC' c')).map ptsO')
        (by
          rw [List.forall₂_map_left_iff, List.forall₂_map_right_iff]
          exact h1.imp hpc)
        (by
          rw [List.forall₂_map_left_iff, List.forall₂_map_right_iff]
          exact h2.imp hpo)
    simp only [List.length_map] at this
    exact this
  unfold vectorizedDistances
  simp only
  rw [forall2_any hc (p := fun c => objects.any fun o => decide (strC c = strO o) &&
      (f ((cands.filter (fun d => strC d = strC c)).map ptsC)
        ((objects.filter (fun o => strO o = strC c)).map ptsO)).isNone) (by
      intro c c' hcc
      apply forall2_any ho
      intro o o' hoo
      rw [optRel_isNone (hcall c c' hcc)]
      congr 1
      rw [decide_eq_decide]
      exact (hl c c' o o' hcc hoo).symm)]
  split
  · exact .none
  · refine .some ⟨hc.length_eq.symm, ho.length_eq.symm, ?_⟩
    intro i j
    simp only
    by_cases hi : i < cands.length
    · by_cases hj : j < objects.length
      · have hi' : i < cands'.length := hc.length_eq ▸ hi
        have hj' : j < objects'.length := ho.length_eq ▸ hj
        have hcc := List.Forall₂.get hc hi hi'
        have hoo := List.Forall₂.get ho hj hj'
        simp only [List.get_eq_getElem] at hcc hoo
        have gi := List.getElem?_eq_getElem hi
        have gj := List.getElem?_eq_getElem hj
        rw [gi, gj, List.getElem?_eq_getElem hi', List.getElem?_eq_getElem hj']
        generalize cands[i] = c at hcc gi
        generalize cands'[i] = c' at hcc
        generalize objects[j] = o at hoo gj
        generalize objects'[j] = o' at hoo
        simp only
        by_cases hs : strC c = strO o
        · rw [if_pos hs, if_pos ((hl c c' o o' hcc hoo).mp hs)]
          have := hcall c c' hcc
          generalize f ((cands.filter (fun d => strC d = strC c)).map ptsC)
            ((objects.filter (fun o => strO o = strC c)).map ptsO) = a at this
          generalize f' ((cands'.filter (fun d => strC' d = strC' c')).map ptsC')
            ((objects'.filter (fun o => strO' o = strC' c')).map ptsO') = b at this
          cases this with
          | none => exact .some htop
          | some h =>
            simp only
            rw [countP_rel hc (q := fun d => decide (strC d = strC c))
              (q' := fun d => decide (strC' d = strC' c')) (hlabc c c' hcc),
              countP_rel ho (q := fun o => decide (strO o = strC c))
              (q' := fun o => decide (strO' o = strC' c')) (hlab c c' hcc)]
            apply h
            · exact countP_take_lt_filter cands (fun d => decide (strC d = strC c)) gi (by simp)
            · exact countP_take_lt_filter objects (fun o => decide (strO o = strC c)) gj (by simp [hs])
        · rw [if_neg hs, if_neg (fun e => hs ((hl c c' o o' hcc hoo).mpr e))]
          exact .some htop
      · rw [List.getElem?_eq_none (by omega : objects.length ≤ j),
          List.getElem?_eq_none (by rw [← ho.length_eq]; omega : objects'.length ≤ j)]
        cases cands'[i]? <;> cases cands[i]? <;> exact .some htop
    · rw [List.getElem?_eq_none (by omega : cands.length ≤ i),
        List.getElem?_eq_none (by rw [← hc.length_eq]; omega : cands'.length ≤ i)]
      exact .some htop

variable [LinearOrder K] [Zero K] [LinearOrder K'] [Zero K'] [LinearOrder D] [OrderTop D] [Zero D]
  [LinearOrder D'] [OrderTop D'] [Zero D'] [DecidableEq L] [DecidableEq L']
  {cfg : Cfg K L D F X} {cfg' : Cfg K' L' D' F' X'}

theorem positions_rel {fo : FilterOps K F} {go : FilterOps K' F'} (hF : R.Filters fo go)
    {o : Obj K L D F} {p : Obj K' L' D' F'} (h : R.Objs o p)
    (hd : fo.dimZ o.filter = o.dimZ) : R.Points (o.positions fo) (p.positions go) := by
  have hz : p.dimZ = o.dimZ := by unfold Obj.dimZ; rw [h.dimPoints, h.numPoints]
  obtain ⟨h1, h2⟩ := hF.positions _ _ h.filter
  rw [hd] at h1 h2
  refine ⟨h.shape, h.numPoints, h.dimPoints, h2, ?_⟩
  simp only [Obj.positions, hz]
  exact h1

theorem estimate_rel (hP : R.Plain) {fo : FilterOps K F} {go : FilterOps K' F'} (hF : R.Filters fo go)
    {o : Obj K L D F} {p : Obj K' L' D' F'} (h : R.Objs o p)
    (hd : fo.dimZ o.filter = o.dimZ) : R.Points (o.estimate fo) (p.estimate go) := by
  have hp := positions_rel hF h hd
  have ha := h.absToRel
  rw [hP.back] at ha
  unfold Obj.estimate
  revert ha
  generalize o.absToRel = a
  generalize p.absToRel = b
  intro ha
  cases ha with
  | none => exact hp
  | some hg => exact hg _ _ hp

theorem dets_points (hP : R.Plain) {r : Ref} {d : Det K L X} {e : Det K' L' X'} (h : R.Dets r d e) :
    R.Points d.points e.points := by
  have := h.points
  rwa [hP.pts] at this

theorem view_rel {fo : FilterOps K F} {h : Ref → Det K L X} {h' : Ref → Det K' L' X'} (hh : R.Heaps h h')
    {o : Obj K L D F} {p : Obj K' L' D' F'} (hop : R.Objs o p) (hd : fo.dimZ o.filter = o.dimZ) :
    R.Views fo (o.view h) (p.view h') := by
  refine ⟨hop, hd, ?_, ?_⟩
  · simp only [Obj.view, hop.lastDet]; exact hh _
  · simp only [Obj.view, hop.past, List.forall₂_map_left_iff, List.forall₂_map_right_iff]
    exact List.forall₂_same.mpr (fun r _ => ⟨r, hh r⟩)

/-- attach a property of the elements on the left -/
theorem forall2_and {A B : Type} {Q : A → B → Prop} {p : A → Prop} {a : List A} {b : List B}
    (h : List.Forall₂ Q a b) (hp : ∀ x ∈ a, p x) : List.Forall₂ (fun x y => Q x y ∧ p x) a b := by
  induction h with
  | nil => exact .nil
  | cons h _ ih =>
    exact .cons ⟨h, hp _ (List.mem_cons_self ..)⟩ (ih fun x hx => hp x (List.mem_cons_of_mem _ hx))

theorem Cfgs_core (hR : R.Cfgs cfg cfg') : R.Core cfg cfg' :=
  { hR with
    below := below_of_lt hR.lt hR.thr
    reidBelow := .inr (below_of_lt hR.lt hR.reidThr)
    reidFill := .inr hR.reidFill
    keptNone := by rw [hR.kept]; exact .none
    keptSome := by rw [hR.kept]; exact fun _ _ h => .some h }

/-- the matrices of distances of detections in `G` correspond -/
def DistLaw (R : Corr K K' L L' D D' F F' X X') (cfg : Cfg K L D F X) (cfg' : Cfg K' L' D' F' X')
    (G : Ref → Prop) : Prop :=
  ∀ (h : Ref → Det K L X) (h' : Ref → Det K' L' X') (a : List (Obj K L D F)) (b : List (Obj K' L' D' F'))
    (dets : List Ref), R.Heaps h h' → List.Forall₂ R.Objs a b → (∀ o ∈ a, cfg.flt.dimZ o.filter = o.dimZ) →
    (∀ r ∈ dets, G r) →
    Option.Rel (MatRel (Option.Rel R.dist)) (detDistances cfg h a dets) (detDistances cfg' h' b dets)

theorem detDistances_rel (hP : R.Plain) (hR : R.Cfgs cfg cfg') {h : Ref → Det K L X} {h' : Ref → Det K' L' X'}
    (hh : R.Heaps h h') {a : List (Obj K L D F)} {b : List (Obj K' L' D' F')}
    (hab : List.Forall₂ R.Objs a b) (hd : ∀ o ∈ a, cfg.flt.dimZ o.filter = o.dimZ) (dets : List Ref) :
    Option.Rel (MatRel (Option.Rel R.dist)) (detDistances cfg h a dets) (detDistances cfg' h' b dets) := by
  have hab' := forall2_and hab hd
  have hdd : List.Forall₂ (fun r r' : Ref => r' = r) dets dets := List.forall₂_same.mpr (fun _ _ => rfl)
  unfold detDistances
  have hdist := hR.dist
  revert hdist
  generalize cfg.dist = d
  generalize cfg'.dist = d'
  intro hdist
  cases hdist with
  | scalar f g hfg =>
    apply scalarDistances_rel hR.top hab' hdd
    · rintro r _ o p rfl ⟨hop, _⟩
      exact hR.labels _ _ _ _ (hh _).label hop.label
    · rintro r _ o p rfl ⟨hop, ho⟩ _
      exact hfg _ _ _ _ _ (hh _) (view_rel hh hop ho)
  | vectorized str str' f g hstr hfg =>
    apply vectorizedDistances_rel hR.top hab' hdd
    · rintro r _ o p rfl ⟨hop, _⟩
      exact hstr _ _ _ _ (hh _).label hop.label
    · rintro r _ s _ rfl rfl
      exact hstr _ _ _ _ (hh _).label (hh _).label
    · rintro o p ⟨hop, ho⟩
      exact (estimate_rel hP hR.filters hop ho).vec
    · rintro r _ rfl
      exact (dets_points hP (hh _)).vec
    · exact hfg

theorem distLaw (hP : R.Plain) (hR : R.Cfgs cfg cfg') : DistLaw R cfg cfg' fun _ => True :=
  fun _ _ _ _ dets hh hab hd _ => detDistances_rel hP hR hh hab hd dets

theorem reidDistances_rel (hR : R.Core cfg cfg') {f g}
    (hfg : ∀ c d v u, R.Views cfg.flt c d → R.Views cfg.flt v u → R.Dist (f c v) (g d u))
    {h : Ref → Det K L X} {h' : Ref → Det K' L' X'} (hh : R.Heaps h h')
    {a c : List (Obj K L D F)} {b d : List (Obj K' L' D' F')}
    (hab : List.Forall₂ R.Objs a b) (ha : ∀ o ∈ a, cfg.flt.dimZ o.filter = o.dimZ)
    (hcd : List.Forall₂ R.Objs c d) (hc : ∀ o ∈ c, cfg.flt.dimZ o.filter = o.dimZ) :
    Option.Rel (MatRel (Option.Rel R.dist)) (reidDistances f h a c) (reidDistances g h' b d) := by
  unfold reidDistances
  apply scalarDistances_rel hR.top (forall2_and hab ha) (forall2_and hcd hc)
  · rintro _ _ _ _ ⟨h1, _⟩ ⟨h2, _⟩
    exact hR.labels _ _ _ _ h1.label h2.label
  · rintro _ _ _ _ ⟨h1, h1'⟩ ⟨h2, h2'⟩ _
    exact hfg _ _ _ _ (view_rel hh h1 h1') (view_rel hh h2 h2')

theorem hasNan_rel {Q : D → D' → Prop} {M : Mat (Option D)} {N : Mat (Option D')}
    (h : MatRel (Option.Rel Q) M N) : N.hasNan = M.hasNan := by
  unfold Mat.hasNan
  rw [h.rows, h.cols]
  congr 1
  funext i
  congr 1
  funext j
  exact optRel_isNone (h.val i j)

theorem map_rel {Q : D → D' → Prop} (htop : Q ⊤ ⊤) {M : Mat (Option D)} {N : Mat (Option D')}
    (h : MatRel (Option.Rel Q) M N) : MatRel Q (M.map (fun x => x.getD ⊤)) (N.map (fun x => x.getD ⊤)) :=
  ⟨h.rows, h.cols, fun i j => optRel_getD (h.val i j) htop⟩

/-- order and zero are the same on both sides -/
def SameOrder (R : Corr K K' L L' D D' F F' X X') : Prop :=
  (∀ a x, R.dist a x → (a = 0 ↔ x = 0)) ∧ ∀ a b x y, R.dist a x → R.dist b y → (a < b ↔ x < y)

/-- order and zero are the same on both sides, or it does not matter what objects remember about distances -/
def MinsOk (R : Corr K K' L L' D D' F F' X X') (w : World K L D F X) : Prop :=
  SameOrder R ∨ ((∀ a x, R.kept a x) ∧ w.keys.Nodup)

theorem anyNonzero_rel (hz : ∀ a x, R.dist a x → (a = 0 ↔ x = 0)) {M : Mat D} {N : Mat D'} (h : MatRel R.dist M N) :
    N.anyNonzero = M.anyNonzero := by
  unfold Mat.anyNonzero
  rw [h.rows, h.cols]
  congr 1
  funext i
  congr 1
  funext j
  rw [decide_eq_decide, ne_eq, ne_eq, not_iff_not]
  exact (hz _ _ (h.val i j)).symm

theorem colMin_rel (hlt : ∀ a b x y, R.dist a x → R.dist b y → (a < b ↔ x < y)) {M : Mat D} {N : Mat D'} (h : MatRel R.dist M N) (j : Nat) :
    R.dist (M.colMin j) (N.colMin j) := by
  unfold Mat.colMin
  rw [h.rows, argmin_rel (f := fun i => M.val i j) (g := fun i => N.val i j)
    (fun a b => hlt _ _ _ _ (h.val a j) (h.val b j))]
  exact h.val _ _

theorem put_dim {fo : FilterOps K F} {w : World K L D F X} (h : DimOk fo w) {o : Obj K L D F}
    (ho : fo.dimZ o.filter = o.dimZ) : DimOk fo (w.put o) := by
  intro p hp
  rcases World.mem_put hp with ⟨rfl, _⟩ | ⟨h1, _⟩
  · exact ho
  · exact h p h1

theorem setMins_rel (hR : R.Core cfg cfg') (hlt : ∀ a b x y, R.dist a x → R.dist b y → (a < b ↔ x < y))
    {thr : D} {thr' : D'} (ht : ∀ a x, R.dist a x → (a < thr ↔ x < thr'))
    {M : Mat D} {N : Mat D'} (hM : MatRel R.dist M N) (ks : List Nat) :
    ∀ (j : Nat) (w : World K L D F X) (v : World K' L' D' F' X'), R.Worlds w v → DimOk cfg.flt w →
      R.Worlds (setMins thr M j ks w) (setMins thr' N j ks v) ∧ DimOk cfg.flt (setMins thr M j ks w) := by
  induction ks with
  | nil => exact fun _ _ _ h hd => ⟨h, hd⟩
  | cons k ks ih =>
    intro j w v h hd
    unfold setMins
    have hc := colMin_rel hlt hM j
    rcases find_rel h k with ⟨h1, h2⟩ | ⟨o, p, h1, h2, hop⟩
    · simp only [h1, h2]
      exact ih _ _ _ h hd
    · simp only [h1, h2]
      apply ih
      · apply put_rel h
        refine { hop with curMin := ?_ }
        simp only
        by_cases hlt : M.colMin j < thr
        · rw [if_pos hlt, if_pos ((ht _ _ hc).mp hlt)]
          exact hR.keptSome _ _ hc
        · rw [if_neg hlt, if_neg (fun e => hlt ((ht _ _ hc).mpr e))]
          exact hR.keptNone
      · exact put_dim hd (hd o (World.find_some h1).1)

/-! ### Objects -/

theorem setAge_rel {h : Ref → Det K L X} {h' : Ref → Det K' L' X'} (hh : R.Heaps h h') (r : Ref) (a : Int) :
    R.Heaps (setAge h r a) (setAge h' r a) := by
  intro q
  unfold setAge
  split
  · rename_i e
    subst e
    exact { hh q with age := rfl }
  · exact hh q

theorem transformDet_rel (hP : R.Plain) {h : Ref → Det K L X} {h' : Ref → Det K' L' X'} (hh : R.Heaps h h') {r : Ref}
    {c : CoordTrans K} {c' : CoordTrans K'} (hc : R.Trans c c') :
    R.Heaps (transformDet c h r) (transformDet c' h' r) := by
  intro q
  unfold transformDet
  split
  · rename_i e
    subst e
    have hp := (hh q).points
    rw [hP.pts] at hp
    exact { hh q with
      points := by rw [hP.pts]; exact hp
      absPoints := hc.1 _ _ (hh q).absPoints }
  · exact hh q

theorem condAdd_rel {h : Ref → Det K L X} {h' : Ref → Det K' L' X'} (hh : R.Heaps h h') (n : Nat) (age : Int)
    (past : List Ref) (r : Ref) :
    (condAdd n age h past r = none ∧ condAdd n age h' past r = none) ∨
    ∃ g g' past', condAdd n age h past r = some (g, past') ∧ condAdd n age h' past r = some (g', past') ∧
      R.Heaps g g' := by
  unfold condAdd
  split
  · exact Or.inr ⟨_, _, _, rfl, rfl, hh⟩
  split
  · exact Or.inr ⟨_, _, _, rfl, rfl, setAge_rel hh _ _⟩
  split
  · exact Or.inr ⟨_, _, _, rfl, rfl, hh⟩
  · rename_i p rest _
    rw [(hh p).age]
    split
    · exact Or.inl ⟨rfl, rfl⟩
    · split
      · exact Or.inr ⟨_, _, _, rfl, rfl, setAge_rel hh _ _⟩
      · exact Or.inr ⟨_, _, _, rfl, rfl, hh⟩

theorem condAddAll_rel (n : Nat) (age : Int) (rs : List Ref) :
    ∀ (h : Ref → Det K L X) (h' : Ref → Det K' L' X') (past : List Ref), R.Heaps h h' →
    R.Heaps (condAddAll n age h past rs).1 (condAddAll n age h' past rs).1 ∧
    (condAddAll n age h' past rs).2 = (condAddAll n age h past rs).2 := by
  induction rs with
  | nil => exact fun h h' past hh => ⟨hh, rfl⟩
  | cons r rs ih =>
    intro h h' past hh
    unfold condAddAll
    rcases condAdd_rel hh n age past r with ⟨h1, h2⟩ | ⟨g, g', past', h1, h2, h3⟩
    · simp only [h1, h2]
      exact ⟨hh, trivial⟩
    · simp only [h1, h2]
      exact ih g g' past' h3

theorem map_over_rel (hR : R.Core cfg cfg') {s : List K} {t : List K'} (h : List.Forall₂ R.score s t) :
    t.map (fun x => decide (cfg'.detThr < x)) = s.map (fun x => decide (cfg.detThr < x)) := by
  induction h with
  | nil => rfl
  | cons h _ ih =>
    simp only [List.map_cons, ih]
    congr 1
    rw [decide_eq_decide]
    exact (hR.scores _ _ h).symm

theorem overThreshold_rel (hR : R.Core cfg cfg') {d : Det K L X} {e : Det K' L' X'} {r : Ref} (h : R.Dets r d e)
    (n : Nat) : overThreshold cfg'.detThr n e = overThreshold cfg.detThr n d := by
  unfold overThreshold
  have := h.scores
  revert this
  generalize d.scores = a
  generalize e.scores = b
  intro this
  cases this with
  | none => rfl
  | some h => exact map_over_rel hR h

theorem scores_rel {d : Det K L X} {e : Det K' L' X'} {r : Ref} (h : R.Dets r d e) :
    (d.scores = none ∧ e.scores = none) ∨ ∃ s t, d.scores = some s ∧ e.scores = some t := by
  have := h.scores
  revert this
  generalize d.scores = a
  generalize e.scores = b
  intro this
  cases this with
  | none => exact .inl ⟨rfl, rfl⟩
  | some h => exact .inr ⟨_, _, rfl, rfl⟩

theorem length_repeatMask' (dim : Nat) (m : List Bool) : (repeatMask dim m).length = m.length * dim := by
  unfold repeatMask
  induction m with
  | nil => simp
  | cons a m ih => simp only [List.map_cons, List.flatten_cons, List.length_append, List.length_replicate,
      ih, List.length_cons]; ring

theorem length_tileMask' (dim : Nat) (m : List Bool) : (tileMask dim m).length = m.length * dim := by
  unfold tileMask
  induction dim with
  | zero => simp
  | succ n ih =>
    simp only [List.replicate_succ, List.flatten_cons, List.length_append, ih]; ring

theorem hitSensors_rel (hR : R.Core cfg cfg') {d : Det K L X} {e : Det K' L' X'} {r : Ref} (hde : R.Dets r d e)
    (period : Int) {o : Obj K L D F} {p : Obj K' L' D' F'} (hop : R.Objs o p) :
    R.Objs (hitSensors cfg d period o).1 (hitSensors cfg' e period p).1 ∧
    (hitSensors cfg' e period p).2 = (hitSensors cfg d period o).2 ∧
    (hitSensors cfg d period o).1.dimZ = o.dimZ ∧
    cfg.flt.dimZ (hitSensors cfg d period o).1.filter = cfg.flt.dimZ o.filter := by
  have hm := overThreshold_rel hR hde o.numPoints
  have hsome : e.scores.isSome = d.scores.isSome := by
    rcases scores_rel hde with ⟨h1, h2⟩ | ⟨s, t, h1, h2⟩ <;> rw [h1, h2] <;> rfl
  have hz := hR.length _ _ hde.absPoints.vec
  have hdz := hR.filters.dimZ _ _ hop.filter
  unfold hitSensors
  simp only
  rw [hop.numPoints, hm, hsome, hop.pointHits, hop.dimPoints, hz, hdz, hop.once]
  generalize overThreshold cfg.detThr o.numPoints d = mask
  split
  · exact ⟨hop, rfl, rfl, rfl⟩
  rename_i hA
  rw [hop.pwMax]
  rcases scores_rel hde with ⟨h1, h2⟩ | ⟨s, t, h1, h2⟩
  all_goals
    simp only [h1, h2]
    split
    · exact ⟨{ hop with numPoints := rfl, dimPoints := rfl, pwMax := rfl, once := rfl, pointHits := rfl }, rfl, rfl, rfl⟩
    rename_i hB
    simp only [ne_eq, not_or, not_not] at hB
    obtain ⟨hu, hud⟩ := hR.filters.update _ _ _ _ (repeatMask o.dimPoints mask) hop.filter
      hde.absPoints.vec hB.2 (by rw [length_repeatMask', hB.1])
    split
    · exact ⟨{ hop with numPoints := rfl, dimPoints := rfl, pwMax := rfl, once := rfl, pointHits := rfl, filter := hu }, rfl, rfl, hud⟩
    rename_i hC
    simp only [ne_eq, not_or, not_not] at hC
    have hoz : o.dimZ = cfg.flt.dimZ (cfg.flt.update o.filter d.absPoints.data (repeatMask o.dimPoints mask)) := by
      rw [hud, ← hB.1, hC.2]
      unfold Obj.dimZ
      ring
    have hpz : p.dimZ = o.dimZ := by unfold Obj.dimZ; rw [hop.dimPoints, hop.numPoints]
    have hl1 : (List.zipWith (fun a b => a && !b) (tileMask o.dimPoints mask)
        (repeatMask o.dimPoints o.once)).length = o.dimZ := by
      rw [List.length_zipWith, length_tileMask', length_repeatMask', ← hC.1, min_self, hC.2]
      unfold Obj.dimZ
      ring
    have hl2 : ((repeatMask o.dimPoints o.once).map (!·)).length = o.dimZ := by
      rw [List.length_map, length_repeatMask', ← hC.1, hC.2]
      unfold Obj.dimZ
      ring
    obtain ⟨hs, hsd⟩ := hR.filters.setX _ _ d.absPoints.data e.absPoints.data
      (List.zipWith (fun a b => a && !b) (tileMask o.dimPoints mask) (repeatMask o.dimPoints o.once))
      ((repeatMask o.dimPoints o.once).map (!·)) hu hde.absPoints.vec (by rw [hB.2, hud])
      (by rw [hl1, hoz]) (by rw [hl2, hoz])
    rw [← hoz] at hs hsd
    refine ⟨?_, rfl, rfl, ?_⟩
    · exact { hop with
        numPoints := rfl, dimPoints := rfl, pwMax := rfl, once := rfl, pointHits := rfl, filter := hs }
    · have e2 : ∀ (f : F) (q : List Int), ({ o with pointHits := q, filter := f } : Obj K L D F).dimZ = o.dimZ := by
        intro f q; rfl
      simp only [firstDetectionFix]
      rw [e2, hsd, hoz, hud]

theorem hitObj_rel (hR : R.Core cfg cfg') {h : Ref → Det K L X} {h' : Ref → Det K' L' X'} (hh : R.Heaps h h')
    (g c : Nat) {o : Obj K L D F} {p : Obj K' L' D' F'} (hop : R.Objs o p) (r : Ref) (period : Int) :
    R.Heaps (hitObj cfg h g c o r period).heap (hitObj cfg' h' g c p r period).heap ∧
    (hitObj cfg' h' g c p r period).gcount = (hitObj cfg h g c o r period).gcount ∧
    (hitObj cfg' h' g c p r period).count = (hitObj cfg h g c o r period).count ∧
    R.Objs (hitObj cfg h g c o r period).obj (hitObj cfg' h' g c p r period).obj ∧
    (hitObj cfg' h' g c p r period).err = (hitObj cfg h g c o r period).err ∧
    (hitObj cfg h g c o r period).obj.dimZ = o.dimZ ∧
    cfg.flt.dimZ (hitObj cfg h g c o r period).obj.filter = cfg.flt.dimZ o.filter := by
  unfold hitObj
  rw [hR.pastLen, hop.age, hop.past]
  rcases condAdd_rel hh cfg.pastLen o.age o.past r with ⟨h1, h2⟩ | ⟨k, k', past', h1, h2, h3⟩
  · simp only [h1, h2]
    exact ⟨hh, trivial, trivial, hop, trivial, trivial, trivial⟩
  · simp only [h1, h2]
    rw [hop.isInit, hop.hitCounter, hR.hitCounterMax, hR.initDelay]
    split
    · obtain ⟨a1, a2, a3, a4⟩ := hitSensors_rel hR (h3 r) period (o := { o with
        past := past', lastDet := r, hitCounter := min (o.hitCounter + 2 * period) cfg.hitCounterMax,
        isInit := false, id := some (c + 1), globalId := some (g + 1) }) (p := { p with
        age := o.age, past := past', lastDet := r,
        hitCounter := min (o.hitCounter + 2 * period) cfg.hitCounterMax, isInit := false, id := some (c + 1), globalId := some (g + 1) })
        { hop with
          age := rfl, past := rfl, lastDet := rfl, hitCounter := rfl, isInit := rfl, id := rfl, globalId := rfl }
      exact ⟨h3, rfl, rfl, a1, a2, a3, a4⟩
    · obtain ⟨a1, a2, a3, a4⟩ := hitSensors_rel hR (h3 r) period (o := { o with
        past := past', lastDet := r, hitCounter := min (o.hitCounter + 2 * period) cfg.hitCounterMax })
        (p := { p with
        age := o.age, isInit := o.isInit, past := past', lastDet := r,
        hitCounter := min (o.hitCounter + 2 * period) cfg.hitCounterMax })
        { hop with age := rfl, isInit := rfl, past := rfl, lastDet := rfl, hitCounter := rfl }
      exact ⟨h3, rfl, rfl, a1, a2, a3, a4⟩

theorem mergeObj_rel (hR : R.Core cfg cfg') {h : Ref → Det K L X} {h' : Ref → Det K' L' X'} (hh : R.Heaps h h')
    {o c : Obj K L D F} {p q : Obj K' L' D' F'} (hop : R.Objs o p) (hcq : R.Objs c q) :
    R.Heaps (mergeObj cfg h o c).1 (mergeObj cfg' h' p q).1 ∧
    R.Objs (mergeObj cfg h o c).2.1 (mergeObj cfg' h' p q).2.1 ∧
    (mergeObj cfg' h' p q).2.2 = (mergeObj cfg h o c).2.2 := by
  obtain ⟨h1, h2⟩ := condAddAll_rel cfg.pastLen o.age c.past h h' o.past hh
  unfold mergeObj
  simp only
  rw [hR.pastLen, hop.age, hop.past, hcq.past]
  refine ⟨h1, ?_, by rw [h2]⟩
  exact { hop with
    age := rfl
    reidHitCounter := rfl
    hitCounter := by simp only [hop.initialPeriod]
    pointHits := hcq.pointHits
    lastDistance := hcq.lastDistance
    curMin := hcq.curMin
    lastDet := hcq.lastDet
    once := hcq.once
    filter := hcq.filter
    past := by simp only [h2] }

/-! ### Stages -/

/-- same result, corresponding states -/
def ResRel {α : Type} (R : Corr K K' L L' D D' F F' X X') (a : World K L D F X × Except Err α)
    (b : World K' L' D' F' X' × Except Err α) : Prop :=
  R.Worlds a.1 b.1 ∧ b.2 = a.2

theorem hitLoop_rel (hR : R.Core cfg cfg') {thr : D} {thr' : D'} (ht : ∀ a x, R.dist a x → (a < thr ↔ x < thr'))
    (period : Int)
    {M : Mat D} {N : Mat D'} (hM : MatRel R.dist M N) (dets : List Ref) (keys : List Nat)
    (ps : List (Nat × Nat)) :
    ∀ (w : World K L D F X) (v : World K' L' D' F' X') (out : StageOut Ref), R.Worlds w v →
      DimOk cfg.flt w →
      ResRel R (hitLoop cfg thr period M dets keys ps w out)
        (hitLoop cfg' thr' period N dets keys ps v out) ∧
      DimOk cfg.flt (hitLoop cfg thr period M dets keys ps w out).1 := by
  induction ps with
  | nil => exact fun w v out h hd => ⟨⟨h, rfl⟩, hd⟩
  | cons p ps ih =>
    intro w v out h hd
    obtain ⟨i, j⟩ := p
    unfold hitLoop
    split
    · rename_i r k hr hk
      have hlt := ht _ _ (hM.val i j)
      by_cases hc : M.val i j < thr
      · rw [if_pos hc, if_pos (hlt.mp hc)]
        rcases find_rel h k with ⟨h1, h2⟩ | ⟨o, p, h1, h2, hop⟩
        · simp only [h1, h2]
          exact ih w v out h hd
        · simp only [h1, h2]
          obtain ⟨a1, a2, a3, a4, a5, a6, a7⟩ := hitObj_rel hR h.heap w.gcount w.count hop r period
          have hdo : cfg.flt.dimZ (hitObj cfg w.heap w.gcount w.count o r period).obj.filter =
              (hitObj cfg w.heap w.gcount w.count o r period).obj.dimZ := by
            rw [a6, a7]
            exact hd o (World.find_some h1).1
          rw [h.count, h.gcount, a5]
          split
          · exact ⟨⟨put_rel (w := { w with heap := _, gcount := _, count := _ })
              (v := { v with heap := _, gcount := _, count := _ }) ⟨a1, a2, a3, h.initCount, h.objs⟩ a4, rfl⟩,
              put_dim (w := { w with heap := _, gcount := _, count := _ }) hd hdo⟩
          · apply ih
            · apply put_rel (w := { w with heap := _, gcount := _, count := _ })
                (v := { v with heap := _, gcount := _, count := _ }) ⟨a1, a2, a3, h.initCount, h.objs⟩
              exact { a4 with lastDistance := hR.keptSome _ _ (hM.val i j) }
            · exact put_dim (w := { w with heap := _, gcount := _, count := _ }) hd hdo
      · rw [if_neg hc, if_neg (fun e => hc (hlt.mpr e))]
        exact ih w v _ h hd
    · exact ih w v out h hd

theorem mergeLoop_rel (hR : R.Core cfg cfg') {thr : D} {thr' : D'} (ht : ∀ a x, R.dist a x → (a < thr ↔ x < thr'))
    {M : Mat D} {N : Mat D'} (hM : MatRel R.dist M N) (cands keys : List Nat) (ps : List (Nat × Nat)) :
    ∀ (w : World K L D F X) (v : World K' L' D' F' X') (out : StageOut Nat), R.Worlds w v →
      ResRel R (mergeLoop cfg thr M cands keys ps w out) (mergeLoop cfg' thr' N cands keys ps v out) := by
  induction ps with
  | nil => exact fun w v out h => ⟨h, rfl⟩
  | cons p ps ih =>
    intro w v out h
    obtain ⟨i, j⟩ := p
    unfold mergeLoop
    split
    · rename_i c k hc hk
      have hlt := ht _ _ (hM.val i j)
      by_cases hm : M.val i j < thr
      · rw [if_pos hm, if_pos (hlt.mp hm)]
        rcases find_rel h c with ⟨h1, h2⟩ | ⟨oc, pc, h1, h2, hcp⟩
        · simp only [h1, h2]
          exact ih w v out h
        rcases find_rel h k with ⟨h3, h4⟩ | ⟨o, p, h3, h4, hop⟩
        · simp only [h1, h2, h3, h4]
          exact ih w v out h
        · simp only [h1, h2, h3, h4]
          obtain ⟨a1, a2, a3⟩ := mergeObj_rel hR h.heap hop hcp
          rw [a3]
          have hput := put_rel (w := { w with heap := (mergeObj cfg w.heap o oc).1 })
              (v := { v with heap := (mergeObj cfg' v.heap p pc).1 })
              ⟨a1, h.gcount, h.count, h.initCount, h.objs⟩ a2
          split
          · exact ⟨hput, rfl⟩
          · apply ih
            refine ⟨hput.heap, hput.gcount, hput.count, hput.initCount, ?_⟩
            exact filter_rel hput.objs (fun x y hxy => by rw [hxy.initId])
      · rw [if_neg hm, if_neg (fun e => hm (hlt.mpr e))]
        exact ih w v _ h
    · exact ih w v out h

theorem worlds_keys {w : World K L D F X} {v : World K' L' D' F' X'} (h : R.Worlds w v) : v.keys = w.keys := by
  have := h.objs
  unfold World.keys
  generalize w.objs = a at this
  generalize v.objs = b at this
  induction this with
  | nil => rfl
  | cons hop _ ih => simp only [List.map_cons, ih, hop.initId]

theorem put_left {w : World K L D F X} {v : World K' L' D' F' X'} (h : R.Worlds w v) (hn : w.keys.Nodup)
    {o o' : Obj K L D F} (ho : o ∈ w.objs) (hi : o'.initId = o.initId) (hop : ∀ p, R.Objs o p → R.Objs o' p) :
    R.Worlds (w.put o') v := by
  refine ⟨h.heap, h.gcount, h.count, h.initCount, ?_⟩
  simp only [World.put, List.forall₂_map_left_iff]
  refine (forall2_and h.objs (p := fun a => a ∈ w.objs) fun _ h => h).imp ?_
  rintro a b ⟨hab, ha⟩
  by_cases hk : a.initId = o'.initId
  · rw [if_pos hk]
    rw [World.eq_of_mem_of_key hn ha ho (hk.trans hi)] at hab
    exact hop _ hab
  · rw [if_neg hk]; exact hab

theorem put_right {w : World K L D F X} {v : World K' L' D' F' X'} (h : R.Worlds w v) (hn : w.keys.Nodup)
    {p p' : Obj K' L' D' F'} (hp : p ∈ v.objs) (hi : p'.initId = p.initId) (hop : ∀ o, R.Objs o p → R.Objs o p') :
    R.Worlds w (v.put p') := by
  refine ⟨h.heap, h.gcount, h.count, h.initCount, ?_⟩
  simp only [World.put, List.forall₂_map_right_iff]
  have h2 : List.Forall₂ (fun a b => R.Objs a b ∧ b ∈ v.objs) w.objs v.objs := by
    have := forall2_and h.objs.flip (p := fun a => a ∈ v.objs) fun _ h => h
    exact this.flip
  refine h2.imp ?_
  rintro a b ⟨hab, hb⟩
  by_cases hk : b.initId = p'.initId
  · rw [if_pos hk]
    rw [World.eq_of_mem_of_key (worlds_keys h ▸ hn) hb hp (hk.trans hi)] at hab
    exact hop _ hab
  · rw [if_neg hk]; exact hab

theorem setMins_left (hk : ∀ a x, R.kept a x) {fo : FilterOps K F} (thr : D) (M : Mat D) (ks : List Nat) :
    ∀ (j : Nat) (w : World K L D F X) (v : World K' L' D' F' X'), R.Worlds w v → w.keys.Nodup → DimOk fo w →
      R.Worlds (setMins thr M j ks w) v ∧ DimOk fo (setMins thr M j ks w) := by
  induction ks with
  | nil => exact fun _ _ _ h _ hd => ⟨h, hd⟩
  | cons k ks ih =>
    intro j w v h hn hd
    unfold setMins
    cases h1 : w.find k with
    | none => exact ih _ _ _ h hn hd
    | some o =>
      simp only
      apply ih
      · exact put_left h hn (World.find_some h1).1 rfl fun p hop => { hop with curMin := hk _ _ }
      · rwa [World.put_keys]
      · exact put_dim hd (hd o (World.find_some h1).1)

theorem setMins_right (hk : ∀ a x, R.kept a x) (thr : D') (N : Mat D') (ks : List Nat) :
    ∀ (j : Nat) (w : World K L D F X) (v : World K' L' D' F' X'), R.Worlds w v → w.keys.Nodup →
      R.Worlds w (setMins thr N j ks v) := by
  induction ks with
  | nil => exact fun _ _ _ h _ => h
  | cons k ks ih =>
    intro j w v h hn
    unfold setMins
    cases h1 : v.find k with
    | none => exact ih _ _ _ h hn
    | some o =>
      simp only
      exact ih _ _ _ (put_right h hn (World.find_some h1).1 rfl fun p hop => { hop with curMin := hk _ _ }) hn

theorem setMins_keys' {thr : D} {M : Mat D} {ks : List Nat} {j : Nat} {w : World K L D F X} :
    (setMins thr M j ks w).keys = w.keys := by
  induction ks generalizing j w with
  | nil => rfl
  | cons k ks ih =>
    unfold setMins
    cases h1 : w.find k with
    | none => exact ih
    | some o => simp only [ih, World.put_keys]

theorem setMins_if_rel (hR : R.Core cfg cfg') {thr : D} {thr' : D'} (ht : ∀ a x, R.dist a x → (a < thr ↔ x < thr'))
    {M : Mat D} {N : Mat D'} (hM : MatRel R.dist M N) (ks : List Nat) {w : World K L D F X}
    {v : World K' L' D' F' X'} (hz : MinsOk R w) (h : R.Worlds w v) (hd : DimOk cfg.flt w) :
    R.Worlds (if M.anyNonzero = true then setMins thr M 0 ks w else w)
      (if N.anyNonzero = true then setMins thr' N 0 ks v else v) ∧
    DimOk cfg.flt (if M.anyNonzero = true then setMins thr M 0 ks w else w) := by
  rcases hz with ⟨hz, hlt⟩ | ⟨hk, hn⟩
  · rw [anyNonzero_rel hz hM]
    split
    · exact setMins_rel hR hlt ht hM ks 0 w v h hd
    · exact ⟨h, hd⟩
  · split <;> split
    · obtain ⟨a, b⟩ := setMins_left hk thr M ks 0 w v h hn hd
      exact ⟨setMins_right hk thr' N ks 0 _ v a (by rwa [setMins_keys']), b⟩
    · exact setMins_left hk thr M ks 0 w v h hn hd
    · exact ⟨setMins_right hk thr' N ks 0 w v h hn, hd⟩
    · exact ⟨h, hd⟩

/-- one stage, if the matrices of distances correspond -/
theorem stageDet_rel_at (hR : R.Core cfg cfg') (period : Int) {w : World K L D F X}
    {v : World K' L' D' F' X'} (hz : MinsOk R w) (h : R.Worlds w v) (hd : DimOk cfg.flt w) (keys : List Nat)
    (dets : List Ref)
    (hm : dets.length ≠ 0 → Option.Rel (MatRel (Option.Rel R.dist)) (detDistances cfg w.heap (w.objects keys) dets)
      (detDistances cfg' v.heap (v.objects keys) dets)) :
    ResRel R (stageDet cfg period w keys dets) (stageDet cfg' period v keys dets) ∧
    DimOk cfg.flt (stageDet cfg period w keys dets).1 := by
  unfold stageDet
  split
  · exact ⟨⟨h, rfl⟩, hd⟩
  rename_i hdets
  replace hm := hm hdets
  generalize detDistances cfg w.heap (w.objects keys) dets = a at hm
  generalize detDistances cfg' v.heap (v.objects keys) dets = b at hm
  cases hm with
  | none => exact ⟨⟨h, rfl⟩, hd⟩
  | @some M N hm =>
    simp only
    rw [hasNan_rel hm]
    split
    · exact ⟨⟨h, rfl⟩, hd⟩
    have hm' := map_rel hR.top hm
    obtain ⟨h1, hd1⟩ := setMins_if_rel hR hR.below.thr hm' keys hz h hd
    rw [matchDetsAndObjs_rel hR.below hR.fill hm']
    split
    · exact ⟨⟨h1, rfl⟩, hd1⟩
    split
    · exact hitLoop_rel hR hR.below.thr period hm' _ _ _ _ _ _ h1 hd1
    · exact ⟨⟨h1, rfl⟩, hd1⟩

theorem stageDet_rel (hR : R.Core cfg cfg') {G : Ref → Prop} (hD : DistLaw R cfg cfg' G) (period : Int)
    {w : World K L D F X} {v : World K' L' D' F' X'} (hz : MinsOk R w) (h : R.Worlds w v) (hd : DimOk cfg.flt w)
    (keys : List Nat) (dets : List Ref) (hG : ∀ r ∈ dets, G r) :
    ResRel R (stageDet cfg period w keys dets) (stageDet cfg' period v keys dets) ∧
    DimOk cfg.flt (stageDet cfg period w keys dets).1 :=
  stageDet_rel_at hR period hz h hd keys dets fun _ =>
    hD _ _ _ _ dets h.heap (objects_rel h keys) (objects_dim hd keys) hG

theorem reidStage_rel (hR : R.Core cfg cfg') {w : World K L D F X}
    {v : World K' L' D' F' X'} (hz : cfg.reid = none ∨ MinsOk R w) (h : R.Worlds w v) (hd : DimOk cfg.flt w)
    (keys cands : List Nat) :
    ResRel R (reidStage cfg w keys cands) (reidStage cfg' v keys cands) := by
  unfold reidStage
  have hreid := hR.reid
  have hb := hR.reidBelow
  have hfill := hR.reidFill
  revert hreid hb hz hfill
  generalize cfg.reid = a
  generalize cfg'.reid = b
  intro hz hreid hb hfill
  cases hreid with
  | none => exact ⟨h, rfl⟩
  | @some f g hfg =>
    replace hb := hb.resolve_left (by simp)
    replace hfill := hfill.resolve_left (by simp)
    replace hz := hz.resolve_left (by simp)
    simp only
    unfold stageReid
    split
    · exact ⟨h, rfl⟩
    have hm := reidDistances_rel hR hfg h.heap (objects_rel h keys) (objects_dim hd keys)
      (objects_rel h cands) (objects_dim hd cands)
    generalize reidDistances f w.heap (w.objects keys) (w.objects cands) = a at hm
    generalize reidDistances g v.heap (v.objects keys) (v.objects cands) = b at hm
    cases hm with
    | none => exact ⟨h, rfl⟩
    | @some M N hm =>
      simp only
      rw [hasNan_rel hm]
      split
      · exact ⟨h, rfl⟩
      have hm' := map_rel hR.top hm
      obtain ⟨h1, _⟩ := setMins_if_rel hR hb.thr hm' keys hz h hd
      rw [matchDetsAndObjs_rel hb hfill hm']
      split
      · exact ⟨h1, rfl⟩
      split
      · exact mergeLoop_rel hR hb.thr hm' _ _ _ _ _ _ h1
      · exact ⟨h1, rfl⟩

/-- what `update_coordinate_transformation` makes of `abs_to_rel` -/
def backOf {K : Type} (ct : Option (CoordTrans K)) (g : Option (Pts K → Pts K)) : Option (Pts K → Pts K) :=
  match ct with
  | none => g
  | some c => some c.absToRel

/-- the same correspondence, except for `abs_to_rel` -/
abbrev reback (R : Corr K K' L L' D D' F F' X X')
    (B : Option (Pts K → Pts K) → Option (Pts K' → Pts K') → Prop) : Corr K K' L L' D D' F F' X X' :=
  { R with back := B }

theorem Objs.reback {B : Option (Pts K → Pts K) → Option (Pts K' → Pts K') → Prop} {o : Obj K L D F}
    {p : Obj K' L' D' F'} (h : R.Objs o p) (hB : B o.absToRel p.absToRel) : (reback R B).Objs o p :=
  { h with absToRel := hB }

theorem updateCT_rel {B : Option (Pts K → Pts K) → Option (Pts K' → Pts K') → Prop}
    {ct : Option (CoordTrans K)} {ct' : Option (CoordTrans K')} {o : Obj K L D F} {p : Obj K' L' D' F'}
    (h : (reback R B).Objs o p) (hct : R.back (backOf ct o.absToRel) (backOf ct' p.absToRel)) :
    R.Objs (o.updateCT ct) (p.updateCT ct') := by
  cases ct <;> cases ct' <;> exact { h with absToRel := hct }

theorem createObj_rel (hR : R.Core cfg cfg') {w : World K L D F X} {v : World K' L' D' F' X'}
    (h : R.Worlds w v) (r : Ref) (period : Int) {ct : Option (CoordTrans K)} {ct' : Option (CoordTrans K')}
    (hct : R.back (backOf ct none) (backOf ct' none)) :
    R.Worlds (createObj cfg w r period ct) (createObj cfg' v r period ct') := by
  have hdr := h.heap r
  have honce : (match (v.heap r).scores with
      | none => List.replicate (v.heap r).absPoints.n true
      | some s => s.map (fun x => decide (cfg'.detThr < x))) =
    (match (w.heap r).scores with
      | none => List.replicate (w.heap r).absPoints.n true
      | some s => s.map (fun x => decide (cfg.detThr < x))) := by
    rw [hdr.absPoints.n]
    have := hdr.scores
    revert this
    generalize (w.heap r).scores = a
    generalize (v.heap r).scores = b
    intro this
    cases this with
    | none => rfl
    | some hs => exact map_over_rel hR hs
  unfold createObj
  simp only
  refine ⟨setAge_rel h.heap _ _, ?_, ?_, ?_, ?_⟩
  · simp only [h.gcount, hR.initDelay]
  · simp only [h.count, hR.initDelay]
  · simp only [h.initCount]
  · refine List.rel_append h.objs (.cons ?_ .nil)
    refine updateCT_rel (B := fun _ _ => True) ?_ hct
    exact
      { shape := hdr.absPoints.shape
        initId := by simp only [h.initCount]
        id := by simp only [h.count, hR.initDelay]
        globalId := by simp only [h.gcount, hR.initDelay]
        numPoints := hdr.absPoints.n
        dimPoints := hdr.absPoints.dim
        hitCounter := rfl
        reidHitCounter := rfl
        lastDistance := hR.keptNone
        curMin := hR.keptNone
        lastDet := rfl
        age := rfl
        isInit := by simp only [hR.initDelay]
        pwMax := by simp only [hR.pwMax]
        initialPeriod := rfl
        once := honce
        pointHits := congrArg (List.map fun b => if b = true then (1 : Int) else 0) honce
        past := by simp only [hR.pastLen]
        filter := hR.filters.create _ _ hdr.absPoints
        label := hdr.label
        absToRel := trivial }

theorem foldl_create_rel (hR : R.Core cfg cfg') (period : Int) {ct : Option (CoordTrans K)}
    {ct' : Option (CoordTrans K')} (hct : R.back (backOf ct none) (backOf ct' none)) (l : List Ref) :
    ∀ (w : World K L D F X) (v : World K' L' D' F' X'), R.Worlds w v →
      R.Worlds (l.foldl (fun w r => createObj cfg w r period ct) w)
        (l.foldl (fun w r => createObj cfg' w r period ct') v) := by
  induction l with
  | nil => exact fun _ _ h => h
  | cons r l ih =>
    intro w v h
    exact ih _ _ (createObj_rel hR h r period hct)

theorem hcPos_rel {o : Obj K L D F} {p : Obj K' L' D' F'} (h : R.Objs o p) : p.hcPos = o.hcPos := by
  unfold Obj.hcPos; rw [h.hitCounter]

theorem reidPos_rel {o : Obj K L D F} {p : Obj K' L' D' F'} (h : R.Objs o p) : p.reidPos = o.reidPos := by
  unfold Obj.reidPos; rw [h.reidHitCounter]

theorem survivors_rel (hR : cfg'.reidMax = cfg.reidMax) {a : List (Obj K L D F)} {b : List (Obj K' L' D' F')}
    (h : List.Forall₂ R.Objs a b) : List.Forall₂ R.Objs (survivors cfg a) (survivors cfg' b) := by
  unfold survivors
  rw [hR]
  split
  · exact filter_rel h (fun _ _ h => hcPos_rel h)
  · exact filter_rel h (fun _ _ h => reidPos_rel h)

theorem map_initId_rel {a : List (Obj K L D F)} {b : List (Obj K' L' D' F')}
    (h : List.Forall₂ R.Objs a b) : b.map (·.initId) = a.map (·.initId) := by
  induction h with
  | nil => rfl
  | cons hxy _ ih => simp only [List.map_cons, ih, hxy.initId]

theorem advance_rel (hR : R.Core cfg cfg') {B : Option (Pts K → Pts K) → Option (Pts K' → Pts K') → Prop}
    {ct : Option (CoordTrans K)} {ct' : Option (CoordTrans K')}
    (hct : ∀ g h, B g h → R.back (backOf ct g) (backOf ct' h)) {w : World K L D F X}
    {v : World K' L' D' F' X'} (h : (reback R B).Worlds w v) (hd : DimOk cfg.flt w) :
    R.Worlds (advance cfg ct w) (advance cfg' ct' v) ∧ DimOk cfg.flt (advance cfg ct w) := by
  have hs := survivors_rel hR.reidMax h.objs
  refine ⟨⟨fun r => { h.heap r with }, h.gcount, h.count, h.initCount, ?_⟩, ?_⟩
  · simp only [advance, List.forall₂_map_left_iff, List.forall₂_map_right_iff]
    refine hs.imp ?_
    intro o p hop
    refine updateCT_rel (B := B) ?_ (hct _ _ hop.absToRel)
    exact { hop with
      reidHitCounter := by simp only [Obj.trackerStep, hop.reidHitCounter, hop.hitCounter, hR.reidMax]
      hitCounter := by simp only [Obj.trackerStep, hop.hitCounter]
      pointHits := by simp only [Obj.trackerStep, hop.pointHits]
      age := by simp only [Obj.trackerStep, hop.age]
      filter := (hR.filters.predict _ _ hop.filter).1 }
  · intro q hq
    obtain ⟨o, ho, rfl⟩ := List.mem_map.mp hq
    have ho' : o ∈ w.objs := by
      unfold survivors at ho
      split at ho <;> exact (List.mem_filter.mp ho).1
    have hrel : ∃ p, (reback R B).Objs o p := by
      have := h.objs
      obtain ⟨k, hk, rfl⟩ := List.mem_iff_getElem.mp ho'
      exact ⟨_, List.Forall₂.get this hk (this.length_eq ▸ hk)⟩
    obtain ⟨p, hp⟩ := hrel
    have : cfg.flt.dimZ (cfg.flt.predict o.filter) = o.dimZ := by
      rw [(hR.filters.predict _ _ hp.filter).2]
      exact hd o ho'
    cases ct with
    | none => exact this
    | some c => exact this

/-- one call, if the matrices of distances correspond in both rounds -/
theorem updateCore_rel_at (hR : R.Core cfg cfg')
    {B : Option (Pts K → Pts K) → Option (Pts K' → Pts K') → Prop}
    {w : World K L D F X} {v : World K' L' D' F' X'}
    (h : (reback R B).Worlds w v) (hd : DimOk cfg.flt w) (dets : List Ref) (period : Int)
    {ct : Option (CoordTrans K)} {ct' : Option (CoordTrans K')}
    (hct : ∀ g h, B g h → R.back (backOf ct g) (backOf ct' h)) (hnew : R.back (backOf ct none) (backOf ct' none))
    (hz0 : MinsOk R (advance cfg ct w))
    (hm0 : ∀ ks, ks = (advance cfg ct w).keysWhere (aliveKeys cfg w.objs) (fun o => !o.isInit) →
      ks = (advance cfg' ct' v).keysWhere (aliveKeys cfg' v.objs) (fun o => !o.isInit) →
      R.Worlds (advance cfg ct w) (advance cfg' ct' v) → DimOk cfg.flt (advance cfg ct w) →
      Option.Rel (MatRel (Option.Rel R.dist)) (detDistances cfg w.heap ((advance cfg ct w).objects ks) dets)
        (detDistances cfg' v.heap ((advance cfg' ct' v).objects ks) dets))
    (hm1 : ∀ w1 v1 out1 ks,
      stageDet cfg period (advance cfg ct w)
        ((advance cfg ct w).keysWhere (aliveKeys cfg w.objs) (fun o => !o.isInit)) dets = (w1, .ok out1) →
      stageDet cfg' period (advance cfg' ct' v)
        ((advance cfg' ct' v).keysWhere (aliveKeys cfg' v.objs) (fun o => !o.isInit)) dets = (v1, .ok out1) →
      R.Worlds w1 v1 → DimOk cfg.flt w1 → ks = w1.keysWhere (aliveKeys cfg w.objs) (fun o => o.isInit) →
      ks = v1.keysWhere (aliveKeys cfg' v.objs) (fun o => o.isInit) →
      MinsOk R w1 ∧
      Option.Rel (MatRel (Option.Rel R.dist)) (detDistances cfg w1.heap (w1.objects ks) out1.unmatchedC)
        (detDistances cfg' v1.heap (v1.objects ks) out1.unmatchedC))
    (hz2 : cfg.reid = none ∨ ∀ w2, MinsOk R w2) :
    R.Worlds (updateCore cfg w dets period ct).1 (updateCore cfg' v dets period ct').1 ∧
    R.Outs (updateCore cfg w dets period ct).2 (updateCore cfg' v dets period ct').2 := by
  have hsv := survivors_rel hR.reidMax h.objs
  have halive : aliveKeys cfg' v.objs = aliveKeys cfg w.objs := by
    unfold aliveKeys
    rw [hR.reidMax]
    split
    · exact map_initId_rel hsv
    · exact map_initId_rel (filter_rel hsv (fun _ _ h => hcPos_rel h))
  have hdead : deadKeys cfg' v.objs = deadKeys cfg w.objs := by
    unfold deadKeys
    rw [hR.reidMax]
    split
    · rfl
    · exact map_initId_rel (filter_rel hsv (fun _ _ h => by rw [hcPos_rel h]))
  obtain ⟨h1, hd1⟩ := advance_rel hR hct h hd
  have hk1 := keysWhere_rel h1 (aliveKeys cfg w.objs) (q := fun o => !o.isInit) (q' := fun o => !o.isInit)
    (fun _ _ h => by rw [h.isInit])
  obtain ⟨⟨s1, e1⟩, d1⟩ := stageDet_rel_at hR period hz0 h1 hd1
    ((advance cfg ct w).keysWhere (aliveKeys cfg w.objs) (fun o => !o.isInit)) dets
    (fun _ => hm0 _ rfl (by rw [halive, hk1]) h1 hd1)
  unfold updateCore
  simp only
  rw [halive, hk1] at hm1
  rw [halive, hdead, hk1]
  generalize hx : stageDet cfg period (advance cfg ct w)
    ((advance cfg ct w).keysWhere (aliveKeys cfg w.objs) (fun o => !o.isInit)) dets = x at s1 e1 d1
  generalize hy : stageDet cfg' period (advance cfg' ct' v)
    ((advance cfg ct w).keysWhere (aliveKeys cfg w.objs) (fun o => !o.isInit)) dets = y at s1 e1
  obtain ⟨w1, r1⟩ := x
  obtain ⟨v1, r1'⟩ := y
  simp only at e1 s1 d1
  subst e1
  cases r1' with
  | error e => exact ⟨s1, .error e⟩
  | ok out1 =>
    simp only
    have hk2 := keysWhere_rel s1 (aliveKeys cfg w.objs) (q := fun o => o.isInit) (q' := fun o => o.isInit)
      (fun _ _ h => by rw [h.isInit])
    rw [hk2]
    obtain ⟨hz1, hm⟩ := hm1 w1 v1 out1 _ hx hy s1 d1 rfl (by rw [hk2])
    obtain ⟨⟨s2, e2⟩, d2⟩ := stageDet_rel_at hR period hz1 s1 d1
      (w1.keysWhere (aliveKeys cfg w.objs) (fun o => o.isInit)) out1.unmatchedC (fun _ => hm)
    generalize hx2 : stageDet cfg period w1
      (w1.keysWhere (aliveKeys cfg w.objs) (fun o => o.isInit)) out1.unmatchedC = x at s2 e2 d2
    generalize stageDet cfg' period v1
      (w1.keysWhere (aliveKeys cfg w.objs) (fun o => o.isInit)) out1.unmatchedC = y at s2 e2
    obtain ⟨w2, r2⟩ := x
    obtain ⟨v2, r2'⟩ := y
    simp only at e2 s2 d2
    subst e2
    cases r2' with
    | error e => exact ⟨s2, .error e⟩
    | ok out2 =>
      simp only
      obtain ⟨s3, e3⟩ := reidStage_rel hR (hz2.imp id fun h => h w2) s2 d2 (out1.unmatchedO ++ deadKeys cfg w.objs) out2.matchedO
      generalize reidStage cfg w2 (out1.unmatchedO ++ deadKeys cfg w.objs) out2.matchedO = x at s3 e3
      generalize reidStage cfg' v2 (out1.unmatchedO ++ deadKeys cfg w.objs) out2.matchedO = y at s3 e3
      obtain ⟨w3, r3⟩ := x
      obtain ⟨v3, r3'⟩ := y
      simp only at e3 s3
      subst e3
      cases r3' with
      | error e => exact ⟨s3, .error e⟩
      | ok out3 =>
        have h4 := foldl_create_rel hR period hnew out2.unmatchedC _ _ s3
        exact ⟨h4, .ok (filter_rel h4.objs (fun _ _ h => by rw [h.isInit, hcPos_rel h]))⟩

theorem updateCore_rel (hR : R.Core cfg cfg') (hz : SameOrder R) {G : Ref → Prop}
    (hD : DistLaw R cfg cfg' G)
    {B : Option (Pts K → Pts K) → Option (Pts K' → Pts K') → Prop}
    {w : World K L D F X} {v : World K' L' D' F' X'}
    (h : (reback R B).Worlds w v) (hd : DimOk cfg.flt w) (dets : List Ref) (hG : ∀ r ∈ dets, G r) (period : Int)
    {ct : Option (CoordTrans K)} {ct' : Option (CoordTrans K')}
    (hct : ∀ g h, B g h → R.back (backOf ct g) (backOf ct' h)) (hnew : R.back (backOf ct none) (backOf ct' none)) :
    R.Worlds (updateCore cfg w dets period ct).1 (updateCore cfg' v dets period ct').1 ∧
    R.Outs (updateCore cfg w dets period ct).2 (updateCore cfg' v dets period ct').2 :=
  updateCore_rel_at hR h hd dets period hct hnew (.inl hz)
    (fun ks _ _ h1 hd1 => hD _ _ _ _ dets h1.heap (objects_rel h1 ks) (objects_dim hd1 ks) hG)
    (fun w1 _ out1 ks hx _ s1 d1 _ _ => ⟨.inl hz, hD _ _ _ _ out1.unmatchedC s1.heap (objects_rel s1 ks)
      (objects_dim d1 ks) (fun r hr => hG r ((stageDet_out_sub cfg period _ _ _ hx).1 r hr))⟩)
    (.inr fun _ => .inl hz)

theorem transform_rel (hP : R.Plain) {c : CoordTrans K} {c' : CoordTrans K'} (hc : R.Trans c c') (l : List Ref) :
    ∀ (h : Ref → Det K L X) (h' : Ref → Det K' L' X'), R.Heaps h h' →
      R.Heaps (l.foldl (transformDet c) h) (l.foldl (transformDet c') h') := by
  induction l with
  | nil => exact fun _ _ h => h
  | cons r l ih => exact fun h h' hh => ih _ _ (transformDet_rel hP hh hc)

theorem plain_back (hP : R.Plain) {ct : Option (CoordTrans K)} {ct' : Option (CoordTrans K')}
    (hct : Option.Rel R.Trans ct ct') (g h) (hgh : R.back g h) : R.back (backOf ct g) (backOf ct' h) := by
  rw [hP.back] at hgh ⊢
  cases hct with
  | none => exact hgh
  | some hc => exact .some hc.2

/-- one call of `update` on both sides -/
theorem update_rel (hP : R.Plain) (hR : R.Cfgs cfg cfg') {w : World K L D F X} {v : World K' L' D' F' X'}
    (h : R.Worlds w v) (hd : DimOk cfg.flt w) (dets : Option (List Ref)) (period : Int)
    {ct : Option (CoordTrans K)} {ct' : Option (CoordTrans K')} (hct : Option.Rel R.Trans ct ct') :
    R.Worlds (update cfg w dets period ct).1 (update cfg' v dets period ct').1 ∧
    R.Outs (update cfg w dets period ct).2 (update cfg' v dets period ct').2 := by
  have hb := plain_back hP hct
  have hn : R.back none none := by rw [hP.back]; exact .none
  have core := fun (w : World K L D F X) (v : World K' L' D' F' X') (h : R.Worlds w v) (hd : DimOk cfg.flt w)
    (l : List Ref) => updateCore_rel (Cfgs_core hR) ⟨hR.zero, hR.lt⟩ (distLaw hP hR) (B := R.back) h hd l (fun _ _ => trivial)
      period hb (hb _ _ hn)
  cases hct with
  | none =>
    cases dets with
    | none => exact core w v h hd []
    | some l => exact core w v h hd l
  | @some c c' hc =>
    cases dets with
    | none => exact ⟨h, .error _⟩
    | some l =>
      exact core { w with heap := l.foldl (transformDet c) w.heap }
        { v with heap := l.foldl (transformDet c') v.heap }
        ⟨transform_rel hP hc l _ _ h.heap, h.gcount, h.count, h.initCount, h.objs⟩ hd l

end Norfair
