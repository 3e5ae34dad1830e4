import Verif.Model.Sys
import Verif.Lemmas.Trace
import Mathlib.Logic.Function.Basic

/-! Several trackers. -/

set_option linter.unusedSectionVars false

namespace Norfair

variable {K L X ι : Type} {D F : ι → Type}

section
variable [DecidableEq ι] [LinearOrder K] [Zero K] [DecidableEq L]
  [∀ i, LinearOrder (D i)] [∀ i, OrderTop (D i)] [∀ i, Zero (D i)]

theorem Sys.put_world_self (s : Sys K L X D F) (i : ι) (w : World K L (D i) (F i) X) :
    (s.put i w).world i = w := by
  unfold Sys.put Sys.world
  simp

theorem Sys.put_world_ne (s : Sys K L X D F) {i j : ι} (w : World K L (D i) (F i) X) (h : j ≠ i) :
    (s.put i w).world j = { s.world j with heap := w.heap, gcount := w.gcount } := by
  unfold Sys.put Sys.world
  simp [h]

/-- identities in all trackers -/
structure SysInv (s : Sys K L X D F) : Prop where
  inv : ∀ i, Inv (s.world i)
  cross : ∀ i j, ∀ o ∈ (s.world i).objs, ∀ p ∈ (s.world j).objs, ∀ g,
    o.globalId = some g → p.globalId = some g → i = j

/-- later state of a process -/
structure SysEvolve (s s' : Sys K L X D F) : Prop where
  each : ∀ i, Evolve (s.world i) (s'.world i)

theorem SysEvolve.trans {a b c : Sys K L X D F} (h : SysEvolve a b) (h' : SysEvolve b c) :
    SysEvolve a c := ⟨fun i => (h.each i).trans (h'.each i)⟩

/-- each tracker of a process sees a history of the single-tracker kind -/
theorem SysReaches.world {cfg : (i : ι) → Cfg K L (D i) (F i) X} {s s' : Sys K L X D F}
    (h : SysReaches cfg s s') (hI : ∀ i, Inv (s.world i)) (i : ι) :
    Reaches' (cfg i) (s.world i) (s'.world i) := by
  induction h generalizing i with
  | refl => exact .refl _
  | @call s' j dets period ct _ ih =>
    by_cases hij : i = j
    · subst hij
      rw [Sys.put_world_self]
      exact .call dets period ct (ih i) trivial
    · rw [Sys.put_world_ne _ _ hij]
      have he := (update_inv (cfg := cfg j) ((ih j).inv (hI j)).1 dets period ct).2
      exact .env _ _ (ih i) ⟨he.gcount, he.ages⟩ trivial
  | @edit s' heap _ hage ih =>
    exact .env heap s'.gcount (ih i) ⟨le_rfl, hage⟩ trivial

theorem SysReaches.inv {cfg : (i : ι) → Cfg K L (D i) (F i) X} {s s' : Sys K L X D F}
    (h : SysReaches cfg s s') (hI : SysInv s) : SysInv s' ∧ SysEvolve s s' := by
  have hev : SysEvolve s s' := ⟨fun i => ((h.world hI.inv i).inv (hI.inv i)).2⟩
  refine ⟨⟨fun i => ((h.world hI.inv i).inv (hI.inv i)).1, ?_⟩, hev⟩
  induction h with
  | refl => exact hI.cross
  | @call s' k dets period ct hr ih =>
    have ih := ih ⟨fun i => ((hr.world hI.inv i).inv (hI.inv i)).2⟩
    have hIk := fun i => ((hr.world hI.inv i).inv (hI.inv i)).1
    have he := (update_inv (cfg := cfg k) (hIk k) dets period ct).2
    -- an object of tracker k after the call against one of another tracker
    have key : ∀ j, j ≠ k → ∀ o ∈ (update (cfg k) (s'.world k) dets period ct).1.objs,
        ∀ p ∈ (s'.world j).objs, ∀ g, o.globalId = some g → p.globalId = some g → False := by
      intro j hj o ho p hp g h1 h2
      rcases he.newGid o ho g h1 with h3 | ⟨q, hq, _, hqg⟩
      · have := ((hIk j).gidRange p hp g h2).2
        have h4 : (s'.world j).gcount = (s'.world k).gcount := rfl
        omega
      · exact hj (ih k j q hq p hp g hqg h2).symm
    intro i j o ho p hp g h1 h2
    by_cases hi : i = k
    · subst hi
      by_cases hj : j = i
      · exact hj.symm
      · rw [Sys.put_world_self] at ho
        rw [Sys.put_world_ne _ _ hj] at hp
        exact absurd h2 (fun h2 => key j hj o ho p hp g h1 h2)
    · rw [Sys.put_world_ne _ _ hi] at ho
      by_cases hj : j = k
      · subst hj
        rw [Sys.put_world_self] at hp
        exact absurd h2 (fun h2 => key i hi p hp o ho g h2 h1)
      · rw [Sys.put_world_ne _ _ hj] at hp
        exact ih i j o ho p hp g h1 h2
  | @edit s' heap hr hage ih =>
    exact ih ⟨fun i => ((hr.world hI.inv i).inv (hI.inv i)).2⟩

theorem SysInv.initial {s : Sys K L X D F} (h : s.Initial) : SysInv s := by
  refine ⟨fun i => Inv.initial (h i), ?_⟩
  intro i j o ho
  rw [(h i).1] at ho
  simp at ho

end

end Norfair
