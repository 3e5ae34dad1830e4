import Verif.Spec.Rounds
import Verif.Spec.Matching

/-! What the third round of `update` is meant to do: new objects are recognized as old ones. -/

namespace Norfair.Spec

variable {K L D F X : Type}

/-- `x` is the distance of two objects for the ReID distance function `g`: infinite if the labels differ -/
def ReidDist [Top D] (g : ObjView K L D F X → ObjView K L D F X → Option (Option D)) (c o : ObjView K L D F X)
    (x : D) : Prop :=
  (c.obj.label = o.obj.label ∧ g c o = some (some x)) ∨ (c.obj.label ≠ o.obj.label ∧ x = ⊤)

/-- an object that is dead but kept for ReID -/
def Waits (reidMax : Option Int) (o : Obj K L D F) : Prop :=
  reidMax ≠ none ∧ o.hitCounter < 0 ∧ ∀ r, o.reidHitCounter = some r → 0 ≤ r

instance (reidMax : Option Int) (o : Obj K L D F) : Decidable (Waits reidMax o) := by
  unfold Waits
  cases o.reidHitCounter with
  | none => exact decidable_of_iff (reidMax ≠ none ∧ o.hitCounter < 0) (by simp)
  | some r => exact decidable_of_iff (reidMax ≠ none ∧ o.hitCounter < 0 ∧ 0 ≤ r) (by simp)

/-- what the object `o` becomes when it is recognized in the new object `c`: it keeps its identity, its age and its
label and takes over the rest; `past` are its past detections -/
def Recognized (o c : Obj K L D F) (past : List Ref) : Obj K L D F :=
  { o with
    reidHitCounter := none
    hitCounter := 2 * o.initialPeriod
    lastDet := c.lastDet
    lastDistance := c.lastDistance
    curMin := c.curMin
    pointHits := c.pointHits
    once := c.once
    filter := c.filter
    past := past }

/-- The round of ReID: the new objects `cands` are matched with the old objects `olds`, all of them in the state in
which they are compared, with their detections in `h`; `pairs` are the matched positions. `before` are the objects
that are tracked without this round, `after` those with it. -/
structure ReidRound [LinearOrder D] [Top D] (g : ObjView K L D F X → ObjView K L D F X → Option (Option D)) (thr : D)
    (h : Ref → Det K L X) (cands olds : List (Obj K L D F)) (d : Nat → Nat → D) (pairs : List (Nat × Nat))
    (before after : List (Obj K L D F)) : Prop where
  distinct : ((cands ++ olds).map (·.initId)).Nodup
  dist : ∀ i j c o, cands[i]? = some c → olds[j]? = some o →
    ReidDist g ⟨c, h c.lastDet, c.past.map h⟩ ⟨o, h o.lastDet, o.past.map h⟩ (d i j)
  greedy : GreedyMatching cands.length olds.length d thr pairs
  merged : ∀ p ∈ pairs, ∃ c o past, cands[p.1]? = some c ∧ olds[p.2]? = some o ∧ Recognized o c past ∈ after ∧
    ∀ r ∈ past, r ∈ o.past ∨ r ∈ c.past
  keys : after.map (·.initId) = (before.map (·.initId)).filter (fun k =>
    decide (k ∉ pairs.filterMap (fun p => cands[p.1]?.map (·.initId))))
  others : ∀ o ∈ before, o.initId ∉ pairs.filterMap (fun p => cands[p.1]?.map (·.initId)) →
    o.initId ∉ pairs.filterMap (fun p => olds[p.2]?.map (·.initId)) → ∃ v, { o with curMin := v } ∈ after

end Norfair.Spec
