import Verif.Spec.Affine

/-! A tracker that is given the camera movement, and a tracker without camera movement that is given stabilized
detections. -/

namespace Norfair.Spec

variable {K L D F X : Type}

/-- points of one of the shapes considered, with as many coordinates as the shape says -/
def Shaped (shapes : Nat → Nat → Prop) (p : Pts K) : Prop := shapes p.n p.dim ∧ p.data.length = p.dim * p.n

/-- a distance for which it does not matter whether detections are converted to absolute coordinates or estimates
to relative coordinates -/
inductive Transparent (fo : FilterOps K F) (shapes : Nat → Nat → Prop) (c : CoordTrans K) : DistFn K L D F X → Prop
  | points (f : Pts K → Pts K → Option (Option D)) :
      (∀ p q, Shaped shapes p → Shaped shapes q → f p (c.absToRel q) = f (c.relToAbs p) q) →
      Transparent fo shapes c (ofPoints fo f)
  | vectorized (str : L → String) (f : List (List K) → List (List K) → Option (Mat (Option D))) :
      (∀ A B : List (Pts K), (∀ p ∈ A, Shaped shapes p) → (∀ q ∈ B, Shaped shapes q) →
        f (A.map (·.data)) (B.map fun q => (c.absToRel q).data) =
          f (A.map fun p => (c.relToAbs p).data) (B.map (·.data))) →
      Transparent fo shapes c (.vectorized str f)

/-- detections that differ in nothing but the points as seen by the camera -/
def SameDet (shapes : Nat → Nat → Prop) (d e : Det K L X) : Prop :=
  Shaped shapes d.absPoints ∧ e = { d with points := e.points }

/-- `e` is the stabilized version of the new detection `d`: its points are those of `d` in absolute coordinates -/
def StableDet (shapes : Nat → Nat → Prop) (c : CoordTrans K) (d e : Det K L X) : Prop :=
  Shaped shapes d.points ∧ Shaped shapes (c.relToAbs d.points) ∧ d.absPoints = d.points ∧
  e = { d with points := c.relToAbs d.points, absPoints := c.relToAbs d.points }

/-- views of the same object that differ in nothing but what is relative to the camera -/
structure ViewSame (v u : ObjView K L D F X) : Prop where
  obj : u.obj = { v.obj with absToRel := none }
  last : u.last = { v.last with points := u.last.points }
  past : List.Forall₂ (fun d e => e = { d with points := e.points }) v.past u.past

/-- a distance between objects that does not use anything relative to the camera (for example one that compares
embeddings) -/
def Absolute (f : ObjView K L D F X → ObjView K L D F X → Option (Option D)) : Prop :=
  ∀ a b a' b', ViewSame a a' → ViewSame b b' → f a' b' = f a b

variable [LinearOrder K] [Zero K] [LinearOrder D] [OrderTop D] [Zero D] [DecidableEq L]

/-- Two trackers with the same arguments, from their construction on. In every call the first one is given new
detections and a coordinate transformation (one of those in `T`); the second one is given the stabilized versions
of these detections and no transformation. -/
inductive Stabilized (cfg : Cfg K L D F X) (shapes : Nat → Nat → Prop) (shape : L → Nat × Nat)
    (T : CoordTrans K → Prop) : World K L D F X → World K L D F X → Prop
  | start {w v} : w.Initial → v.Initial → v.gcount = w.gcount → (∀ r, SameDet shapes (w.heap r) (v.heap r)) →
      Stabilized cfg shapes shape T w v
  | call {w v heap} (l : List Ref) (period : Int) (c : CoordTrans K) : Stabilized cfg shapes shape T w v → T c →
      l.Nodup → CallOk shape l (some c) w.heap → (∀ r ∈ l, StableDet shapes c (w.heap r) (heap r)) →
      (∀ r, r ∉ l → heap r = v.heap r) →
      Stabilized cfg shapes shape T (update cfg w (some l) period (some c)).1
        (update cfg { v with heap := heap } (some l) period none).1
  | env {w v heap heap'} (gcount : Nat) : Stabilized cfg shapes shape T w v → EnvOk w heap gcount →
      (∀ r, SameDet shapes (heap r) (heap' r)) →
      Stabilized cfg shapes shape T { w with heap := heap, gcount := gcount }
        { v with heap := heap', gcount := gcount }

/-- the same object; the first one converts its estimate to relative coordinates -/
structure SeenBy (fo : FilterOps K F) (c : CoordTrans K) (o p : Obj K L D F) : Prop where
  same : p = { o with absToRel := none }
  estimate : o.estimate fo = c.absToRel (p.estimate fo)
  absolute : o.positions fo = p.estimate fo

end Norfair.Spec
