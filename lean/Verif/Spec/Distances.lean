import Verif.Model.Distances

/-! What the properties about distances talk about. -/

namespace Norfair.Spec

variable {K L D F X : Type}

/-- the names accepted by `get_distance_by_name`, with the function each stands for -/
def documented : List (String × Named) :=
  [("iou", .iou), ("iou_opt", .iou), ("frobenius", .frobenius), ("mean_euclidean", .meanEuclidean),
   ("mean_manhattan", .meanManhattan)] ++
  ["braycurtis", "canberra", "chebyshev", "cityblock", "correlation", "cosine", "dice", "euclidean",
   "hamming", "jaccard", "jensenshannon", "kulczynski1", "mahalanobis", "matching", "minkowski",
   "rogerstanimoto", "russellrao", "seuclidean", "sokalmichener", "sokalsneath", "sqeuclidean",
   "yule"].map fun s => (s, .scipy s)

/-- a valid `distance_function` argument: a documented name or something callable -/
def ValidDistance : DistArg L F X → Prop
  | .name s => ∃ d, (s, d) ∈ documented
  | .callable _ => True
  | .other => False

/-- the function on stacks that computes `g` for each pair of rows -/
def pairwise (g : List K → List K → Option D) (cs os : List (List K)) : Option (Mat (Option D)) :=
  some ⟨cs.length, os.length, fun i j =>
    match cs[i]?, os[j]? with
    | some c, some o => g c o
    | _, _ => none⟩

/-- well-formed box -/
def WellFormed [LT K] (b : Box K) : Prop := b.x1 < b.x2 ∧ b.y1 < b.y2

/-- strictly inside of a box -/
def Inside [LT K] (b : Box K) (p : K × K) : Prop := (b.x1 < p.1 ∧ p.1 < b.x2) ∧ (b.y1 < p.2 ∧ p.2 < b.y2)

/-- the array has as many entries as its shape says -/
def ShapeOk (p : Pts K) : Prop := p.data.length = p.dim * p.n

/-- the same shape -/
def SameShape (p q : Pts K) : Prop := p.n = q.n ∧ p.dim = q.dim

end Norfair.Spec
