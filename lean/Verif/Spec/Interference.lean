import Verif.Model.Sys

/-! What it means that trackers do not interfere. -/

namespace Norfair.Spec

variable {K L X ι : Type} {D F : ι → Type}

/-- something that concerns one tracker: a call of its `update`, or the program edits one detection -/
inductive Ev (K L X : Type)
  | call (dets : Option (List Ref)) (period : Int) (ct : Option (CoordTrans K))
  | edit (r : Ref) (d : Det K L X)

/-- replace one detection -/
def setDet (h : Ref → Det K L X) (r : Ref) (d : Det K L X) : Ref → Det K L X :=
  fun q => if q = r then d else h q

section
variable [LinearOrder K] [Zero K] [DecidableEq L]

/-- only these events happen: the final state and the results of the calls -/
def solo {D F : Type} [LinearOrder D] [OrderTop D] [Zero D] (cfg : Cfg K L D F X) :
    List (Ev K L X) → World K L D F X → World K L D F X × List (Except Err (List (Obj K L D F)))
  | [], w => (w, [])
  | .call dets period ct :: es, w =>
    let res := solo cfg es (update cfg w dets period ct).1
    (res.1, (update cfg w dets period ct).2 :: res.2)
  | .edit r d :: es, w => solo cfg es { w with heap := setDet w.heap r d }

variable [DecidableEq ι] [∀ i, LinearOrder (D i)] [∀ i, OrderTop (D i)] [∀ i, Zero (D i)]

/-- `Interleaved cfg i S s es outs s'`: a process gets from `s` to `s'`; `es` are the events that concern
tracker `i`, in order, and `outs` the results of its calls. In between, other trackers get other
detections (those outside `S`) and the program edits these. -/
inductive Interleaved (cfg : (j : ι) → Cfg K L (D j) (F j) X) (i : ι) (S : Ref → Prop) :
    Sys K L X D F → List (Ev K L X) → List (Except Err (List (Obj K L (D i) (F i)))) → Sys K L X D F → Prop
  | refl (s) : Interleaved cfg i S s [] [] s
  | mine {s es outs s'} (dets : Option (List Ref)) (period : Int) (ct : Option (CoordTrans K)) :
      Interleaved cfg i S s es outs s' → (∀ r ∈ dets.getD [], S r) →
      Interleaved cfg i S s (es ++ [.call dets period ct])
        (outs ++ [(update (cfg i) (s'.world i) dets period ct).2])
        (s'.put i (update (cfg i) (s'.world i) dets period ct).1)
  | other {s es outs s'} (j : ι) (dets : Option (List Ref)) (period : Int) (ct : Option (CoordTrans K)) :
      Interleaved cfg i S s es outs s' → j ≠ i → (∀ r ∈ dets.getD [], ¬ S r) →
      Interleaved cfg i S s es outs (s'.put j (update (cfg j) (s'.world j) dets period ct).1)
  | editMine {s es outs s'} (r : Ref) (d : Det K L X) :
      Interleaved cfg i S s es outs s' → S r → ((s'.heap r).age ≠ none → d.age ≠ none) →
      Interleaved cfg i S s (es ++ [.edit r d]) outs { s' with heap := setDet s'.heap r d }
  | editOther {s es outs s'} (r : Ref) (d : Det K L X) :
      Interleaved cfg i S s es outs s' → ¬ S r → ((s'.heap r).age ≠ none → d.age ≠ none) →
      Interleaved cfg i S s es outs { s' with heap := setDet s'.heap r d }

end

/-- the same objects up to `global_id` -/
def SameObjs {D F : Type} (a b : List (Obj K L D F)) : Prop :=
  a.map (fun o => { o with globalId := none }) = b.map (fun o => { o with globalId := none })

/-- the same results up to `global_id` -/
def SameOut {D F : Type} : Except Err (List (Obj K L D F)) → Except Err (List (Obj K L D F)) → Prop
  | .ok a, .ok b => SameObjs a b
  | .error e, .error e' => e = e'
  | _, _ => False

end Norfair.Spec
