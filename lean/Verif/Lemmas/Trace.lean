import Verif.Lemmas.Inv

/-! Facts about sequences of calls. -/

set_option linter.unusedSectionVars false

namespace Norfair

variable {K L D F X : Type}

section
variable [LinearOrder K] [Zero K] [LinearOrder D] [OrderTop D] [Zero D] [DecidableEq L]

theorem Trace.reaches {cfg : Cfg K L D F X} {w w' : World K L D F X} {fs}
    (h : Trace cfg w fs w') : Reaches' cfg w w' := by
  induction h with
  | nil => exact .refl _
  | call dets period ct _ ih => exact .call dets period ct ih trivial
  | env heap g _ he ih => exact .env heap g ih he trivial

theorem Reaches'.trace {cfg : Cfg K L D F X} {w w' : World K L D F X}
    (h : Reaches' cfg w w') : ∃ fs, Trace cfg w fs w' := by
  induction h with
  | refl => exact ⟨_, .nil _⟩
  | call dets period ct _ _ ih => obtain ⟨fs, h⟩ := ih; exact ⟨_, .call dets period ct h⟩
  | env heap g _ he _ ih => obtain ⟨fs, h⟩ := ih; exact ⟨_, .env heap g h he⟩

theorem Reaches.mono {cfg : Cfg K L D F X} {E E' P P'} {a b : World K L D F X} (h : Reaches cfg E P a b)
    (hE : ∀ x y, E x y → E' x y) (hP : ∀ d p c w, P d p c w → P' d p c w) : Reaches cfg E' P' a b := by
  induction h with
  | refl => exact .refl _
  | call dets period ct _ hp ih => exact .call dets period ct ih (hP _ _ _ _ hp)
  | env heap g _ he hE' ih => exact .env heap g ih he (hE _ _ hE')

theorem Reaches.trans' {cfg : Cfg K L D F X} {E P} {a b c : World K L D F X}
    (h : Reaches cfg E P a b) (h' : Reaches cfg E P b c) : Reaches cfg E P a c := by
  induction h' with
  | refl => exact h
  | call dets period ct _ hp ih => exact .call dets period ct ih hp
  | env heap g _ he hE ih => exact .env heap g ih he hE

/-- each frame is one call, made in a state reached from the start -/
theorem Trace.frame {cfg : Cfg K L D F X} {w w' : World K L D F X} {fs}
    (h : Trace cfg w fs w') : ∀ f ∈ fs, Reaches' cfg w f.before ∧
      f.after = (update cfg f.before f.dets f.period f.ct).1 ∧
      f.out = (update cfg f.before f.dets f.period f.ct).2 ∧ Reaches' cfg f.after w' := by
  induction h with
  | nil => simp
  | call dets period ct h ih =>
    intro f hf
    rcases List.mem_append.mp hf with hf | hf
    · obtain ⟨h1, h2, h3, h4⟩ := ih f hf
      exact ⟨h1, h2, h3, .call dets period ct h4 trivial⟩
    · simp only [List.mem_singleton] at hf
      subst hf
      exact ⟨h.reaches, rfl, rfl, .refl _⟩
  | env heap g _ he ih =>
    intro f hf
    obtain ⟨h1, h2, h3, h4⟩ := ih f hf
    exact ⟨h1, h2, h3, .env heap g h4 he trivial⟩

theorem Reachable.trans {cfg : Cfg K L D F X} {w w' : World K L D F X} (h : Reachable cfg w)
    (h' : Reaches' cfg w w') : Reachable cfg w' := by
  obtain ⟨w0, h0, h⟩ := h
  exact ⟨w0, h0, h.trans' h'⟩

theorem Reachable.update {cfg : Cfg K L D F X} {w : World K L D F X} (h : Reachable cfg w)
    (dets period ct) : Reachable cfg (update cfg w dets period ct).1 :=
  h.trans (.call dets period ct (.refl _) trivial)

end

end Norfair
