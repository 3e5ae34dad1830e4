import Verif.Lemmas.PastOrder
import Verif.Spec.Points

/-! Effect of a successful `hit` on the single points of an object. -/

set_option linter.unusedSectionVars false

namespace Norfair

open Norfair.Spec

variable {K L D F X : Type}

/-! ### masks -/

theorem repeatMask_cons (dim : Nat) (b : Bool) (m : List Bool) :
    repeatMask dim (b :: m) = List.replicate dim b ++ repeatMask dim m := by
  simp [repeatMask]

theorem repeatMask_length (dim : Nat) (m : List Bool) : (repeatMask dim m).length = dim * m.length := by
  induction m with
  | nil => simp [repeatMask]
  | cons b m ih => rw [repeatMask_cons, List.length_append, ih]; simp [Nat.mul_add]; omega

theorem repeatMask_get (dim : Nat) (m : List Bool) (i j : Nat) (hj : j < dim) :
    (repeatMask dim m)[i * dim + j]? = m[i]? := by
  induction m generalizing i with
  | nil => simp [repeatMask]
  | cons b m ih =>
    rw [repeatMask_cons]
    cases i with
    | zero =>
      rw [List.getElem?_append_left (by simpa using hj)]
      simp [List.getElem?_replicate, hj]
    | succ i =>
      rw [List.getElem?_append_right (by simp [Nat.add_mul]; omega)]
      simp only [List.length_replicate]
      rw [show (i + 1) * dim + j - dim = i * dim + j by rw [Nat.add_mul]; omega, ih]
      rfl

theorem tileMask_succ (dim : Nat) (m : List Bool) : tileMask (dim + 1) m = m ++ tileMask dim m := by
  simp [tileMask, List.replicate_succ]

theorem tileMask_length (dim : Nat) (m : List Bool) : (tileMask dim m).length = dim * m.length := by
  induction dim with
  | zero => simp [tileMask]
  | succ d ih => rw [tileMask_succ, List.length_append, ih, Nat.succ_mul]; omega

theorem tileMask_get (dim : Nat) (m : List Bool) (k : Nat) (hk : k < dim * m.length) :
    (tileMask dim m)[k]? = m[k % m.length]? := by
  induction dim generalizing k with
  | zero => simp at hk
  | succ d ih =>
    rw [tileMask_succ]
    by_cases h : k < m.length
    · rw [List.getElem?_append_left h, Nat.mod_eq_of_lt h]
    · rw [List.getElem?_append_right (by omega), ih (k - m.length) (by rw [Nat.succ_mul] at hk; omega)]
      congr 1
      exact (Nat.mod_eq_sub_mod (by omega)).symm

theorem maskAssign_length (m : List Bool) (a b : List K) : (maskAssign m a b).length = a.length := by
  induction m generalizing a b with
  | nil => simp [maskAssign]
  | cons x m ih =>
    cases a with
    | nil => simp [maskAssign]
    | cons y a =>
      cases b with
      | nil => simp [maskAssign]
      | cons z b => simp [maskAssign, ih]

theorem maskAssign_get (m : List Bool) (a b : List K) (hab : a.length ≤ b.length) (k : Nat) :
    (maskAssign m a b)[k]? = if m[k]? = some true ∧ k < a.length then b[k]? else a[k]? := by
  induction m generalizing a b k with
  | nil => simp [maskAssign]
  | cons x m ih =>
    cases a with
    | nil => simp [maskAssign]
    | cons y a =>
      cases b with
      | nil => simp at hab
      | cons z b =>
        cases k with
        | zero => cases x <;> simp [maskAssign]
        | succ k =>
          simp only [maskAssign, List.getElem?_cons_succ, List.length_cons, Nat.add_lt_add_iff_right]
          exact ih a b (by simpa using hab) k

theorem bumpPoints_get (inc : Int) (m : List Bool) (cs : List Int) (i : Nat) :
    (bumpPoints inc m cs)[i]? = cs[i]?.map (fun c => if m[i]? = some true then c + inc else c) := by
  induction m generalizing cs i with
  | nil => simp [bumpPoints]
  | cons x m ih =>
    cases cs with
    | nil => simp [bumpPoints]
    | cons c cs =>
      cases i with
      | zero => cases x <;> simp [bumpPoints]
      | succ i => simp only [bumpPoints, List.getElem?_cons_succ]; exact ih cs i

theorem bumpPoints_length (inc : Int) (m : List Bool) (cs : List Int) :
    (bumpPoints inc m cs).length = cs.length := by
  induction m generalizing cs with
  | nil => simp [bumpPoints]
  | cons x m ih => cases cs with
    | nil => simp [bumpPoints]
    | cons c cs => simp [bumpPoints, ih]

theorem clampPoints_get (pwMax : Int) (cs : List Int) (i : Nat) :
    (clampPoints pwMax cs)[i]? = cs[i]?.map (fun c => max 0 (min c pwMax)) := by
  unfold clampPoints
  rw [List.getElem?_map, List.getElem?_map, Option.map_map]
  congr 1
  funext c
  simp only [Function.comp]
  split <;> split <;> omega

theorem clampPoints_length (pwMax : Int) (cs : List Int) :
    (clampPoints pwMax cs).length = cs.length := by simp [clampPoints]

section
variable [LinearOrder K]

theorem overThreshold_get (thr : K) (n : Nat) (d : Det K L X) (i : Nat) (hi : i < n) :
    (overThreshold thr n d)[i]? = some true ↔ Seen thr d i := by
  unfold overThreshold Seen
  split
  · rename_i s hs
    simp only [hs, Option.some.injEq, forall_eq', List.getElem?_map, Option.map_eq_some_iff,
      decide_eq_true_eq]
  · rename_i hs
    simp [hs, List.getElem?_replicate, hi]

theorem overThreshold_length (thr : K) (n : Nat) (d : Det K L X)
    (h : ∀ s, d.scores = some s → s.length = n) : (overThreshold thr n d).length = n := by
  unfold overThreshold
  split
  · rename_i s hs
    simpa using h s hs
  · simp

end

section
variable [LinearOrder K] [Zero K] [LinearOrder D] [OrderTop D] [Zero D] [DecidableEq L]

/-! ### the sensors part of `hit` -/

open Classical in
/-- the coordinate `k` is written directly by `hit`: the (wrongly laid out) mask of line 665 says that
it is seen now, and its point has never been seen before -/
noncomputable def Snapped (thr : K) (o : Obj K L D F) (d : Det K L X) (k : Nat) : Prop :=
  Seen thr d (k % o.numPoints) ∧ o.once[k / o.dimPoints]? = some false

/-- Everything that the second half of a successful `hit` does to an object with one counter per
point. -/
structure SensorsOk (cfg : Cfg K L D F X) (d : Det K L X) (period : Int) (o o' : Obj K L D F) : Prop where
  maskLen : (overThreshold cfg.detThr o.numPoints d).length = o.numPoints
  onceLen : o.once.length = o.numPoints
  dimZ : cfg.flt.dimZ o.filter = o.dimZ
  zLen : d.absPoints.data.length = o.dimZ
  hitsLen : o'.pointHits.length = o.pointHits.length
  hits : ∀ i c, o.pointHits[i]? = some c → ∃ b : Bool, (b = true ↔ Seen cfg.detThr d i) ∧
    o'.pointHits[i]? = some (max 0 (min (if b then c + 2 * period else c) o.pwMax))
  onceLen' : o'.once.length = o.numPoints
  once : ∀ i, i < o.numPoints → (o'.once[i]? = some true ↔ o.once[i]? = some true ∨ Seen cfg.detThr d i)
  filter : o'.filter = (firstDetectionFix cfg.flt (overThreshold cfg.detThr o.numPoints d)
      d.absPoints.data { o with
        filter := cfg.flt.update o.filter d.absPoints.data
          (repeatMask o.dimPoints (overThreshold cfg.detThr o.numPoints d)) }).filter
  rest : o' = { o with pointHits := o'.pointHits, once := o'.once, filter := o'.filter }

theorem hitSensors_ok {cfg : Cfg K L D F X} {d : Det K L X} {period : Int} {o : Obj K L D F}
    (hl : o.pointHits.length = o.numPoints) (h : (hitSensors cfg d period o).2 = none) :
    SensorsOk cfg d period o (hitSensors cfg d period o).1 := by
  unfold hitSensors at h ⊢
  simp only at h ⊢
  split at h
  · cases h
  rename_i h1
  rw [if_neg h1]
  split at h
  · cases h
  rename_i h2
  rw [if_neg h2]
  split at h
  · cases h
  rename_i h3
  rw [if_neg h3]
  push Not at h2 h3
  have hone : ∀ i, i < o.numPoints → (o.once[i]? = some true ∨ o.once[i]? = some false) := by
    intro i hi
    rw [List.getElem?_eq_getElem (by omega)]
    cases o.once[i] <;> simp
  have hmk : ∀ i, i < o.numPoints → ((overThreshold cfg.detThr o.numPoints d)[i]? = some true ∨
      (overThreshold cfg.detThr o.numPoints d)[i]? = some false) := by
    intro i hi
    rw [List.getElem?_eq_getElem (by omega)]
    cases (overThreshold cfg.detThr o.numPoints d)[i] <;> simp
  refine ⟨h3.2, by omega, ?_, ?_, ?_, ?_, ?_, ?_, rfl, rfl⟩
  · rw [← h2.1, h3.2, Nat.mul_comm]; rfl
  · rw [h2.2, ← h2.1, h3.2, Nat.mul_comm]; rfl
  · simp only [firstDetectionFix, clampPoints_length]
    split
    · rw [bumpPoints_length]
    · simp
  · intro i c hc
    have hi : i < o.numPoints := by
      rw [← hl]; exact (List.getElem?_eq_some_iff.mp hc).1
    refine ⟨decide ((overThreshold cfg.detThr o.numPoints d)[i]? = some true), ?_, ?_⟩
    · rw [decide_eq_true_eq]; exact overThreshold_get _ _ _ _ hi
    · simp only [firstDetectionFix, clampPoints_get]
      split
      · rw [bumpPoints_get, hc]
        simp
      · rename_i hs
        rw [List.getElem?_map, hc]
        have : (overThreshold cfg.detThr o.numPoints d)[i]? = some true := by
          rw [overThreshold_get _ _ _ _ hi]; intro s hs'; rw [hs] at hs'; cases hs'
        simp [this]
  · simp only [firstDetectionFix, List.length_zipWith, h3.2, ← h3.1, min_self]
  · intro i hi
    simp only [firstDetectionFix, List.getElem?_zipWith]
    rw [← overThreshold_get cfg.detThr o.numPoints d i hi]
    rcases hone i hi with e1 | e1 <;> rcases hmk i hi with e2 | e2 <;> simp [e1, e2]

/-- Coordinates of the object after a successful `hit`, in terms of the filter state right after
`filter.update`. -/
theorem SensorsOk.coords {cfg : Cfg K L D F X} {Ok : F → Prop} (hL : FilterLaws cfg.flt Ok)
    {d : Det K L X} {period : Int} {o o' : Obj K L D F}
    (h : SensorsOk cfg d period o o') (hok : Ok o.filter) :
    let f := cfg.flt.update o.filter d.absPoints.data
      (repeatMask o.dimPoints (overThreshold cfg.detThr o.numPoints d))
    Ok f ∧ Ok o'.filter ∧ cfg.flt.dimZ o'.filter = o.dimZ ∧
    (∀ i j, i < o.numPoints → j < o.dimPoints →
      let k := i * o.dimPoints + j
      (Snapped cfg.detThr o d k → (cfg.flt.getX o'.filter)[k]? = d.absPoints.data[k]?) ∧
      (¬ Snapped cfg.detThr o d k → (cfg.flt.getX o'.filter)[k]? = (cfg.flt.getX f)[k]?) ∧
      (o.once[i]? = some false → (cfg.flt.getX o'.filter)[o.dimZ + k]? = some 0) ∧
      (o.once[i]? = some true →
        (cfg.flt.getX o'.filter)[o.dimZ + k]? = (cfg.flt.getX f)[o.dimZ + k]?)) := by
  intro f
  have hml : (repeatMask o.dimPoints (overThreshold cfg.detThr o.numPoints d)).length =
      cfg.flt.dimZ o.filter := by
    rw [repeatMask_length, h.maskLen, h.dimZ]; rfl
  obtain ⟨hf, hfz⟩ := hL.update o.filter d.absPoints.data _ hok (h.zLen.trans h.dimZ.symm) hml
  have hxl : (cfg.flt.getX f).length = 2 * o.dimZ := by rw [hL.len f hf, hfz, h.dimZ]
  have hfilter := h.filter
  simp only [firstDetectionFix, Obj.dimZ] at hfilter
  set mask := overThreshold cfg.detThr o.numPoints d with hmask
  set z := d.absPoints.data with hz
  have hdz : o.dimPoints * o.numPoints = o.dimZ := rfl
  rw [hdz] at hfilter
  rw [show cfg.flt.update o.filter z (repeatMask o.dimPoints mask) = f from rfl] at hfilter
  have hxlen : ∀ a b : List K, ∀ m1 m2,
      (maskAssign m1 ((cfg.flt.getX f).take o.dimZ) a ++
        maskAssign m2 ((cfg.flt.getX f).drop o.dimZ) b).length = 2 * cfg.flt.dimZ f := by
    intro a b m1 m2
    rw [List.length_append, maskAssign_length, maskAssign_length, List.length_take, List.length_drop,
      hfz, hxl, h.dimZ]
    omega
  obtain ⟨g1, g2, g3⟩ := hL.setX f _ hf (hxlen z (List.replicate o.dimZ 0)
    (List.zipWith (fun a b => a && !b) (tileMask o.dimPoints mask) (repeatMask o.dimPoints o.once))
    ((repeatMask o.dimPoints o.once).map (!·)))
  rw [← hfilter] at g1 g2 g3
  refine ⟨hf, g1, by rw [g2, hfz, h.dimZ], ?_⟩
  intro i j hi hj k
  have hk : k < o.dimZ := by
    show i * o.dimPoints + j < o.dimPoints * o.numPoints
    calc i * o.dimPoints + j < (i + 1) * o.dimPoints := by rw [Nat.add_mul]; omega
      _ ≤ o.numPoints * o.dimPoints := Nat.mul_le_mul_right _ hi
      _ = _ := Nat.mul_comm _ _
  have hn0 : 0 < o.numPoints := by omega
  have hkd : k / o.dimPoints = i := by
    show (i * o.dimPoints + j) / o.dimPoints = i
    rw [Nat.add_comm, Nat.add_mul_div_right _ _ (by omega), Nat.div_eq_of_lt hj, Nat.zero_add]
  have htl : ((cfg.flt.getX f).take o.dimZ).length = o.dimZ := by
    rw [List.length_take, hxl]; omega
  have hdl : ((cfg.flt.getX f).drop o.dimZ).length = o.dimZ := by
    rw [List.length_drop, hxl]; omega
  have htile : (tileMask o.dimPoints mask)[k]? = mask[k % o.numPoints]? := by
    rw [tileMask_get _ _ _ (by rw [h.maskLen]; exact hk), h.maskLen]
  have honce : (repeatMask o.dimPoints o.once)[k]? = o.once[i]? := repeatMask_get _ _ _ _ hj
  have hseen := overThreshold_get cfg.detThr o.numPoints d (k % o.numPoints) (Nat.mod_lt _ hn0)
  rw [← hmask, ← htile] at hseen
  have hsnap : Snapped cfg.detThr o d k ↔
      (List.zipWith (fun a b => a && !b) (tileMask o.dimPoints mask)
        (repeatMask o.dimPoints o.once))[k]? = some true := by
    unfold Snapped
    rw [← hseen, hkd, ← honce, List.getElem?_zipWith]
    cases (tileMask o.dimPoints mask)[k]? with
    | none => simp
    | some a =>
      cases (repeatMask o.dimPoints o.once)[k]? with
      | none => simp
      | some b => cases a <;> cases b <;> simp
  have hpos : (cfg.flt.getX o'.filter)[k]? =
      if (List.zipWith (fun a b => a && !b) (tileMask o.dimPoints mask)
        (repeatMask o.dimPoints o.once))[k]? = some true then z[k]? else (cfg.flt.getX f)[k]? := by
    rw [g3, List.getElem?_append_left (by rw [maskAssign_length, htl]; exact hk),
      maskAssign_get _ _ _ (by rw [htl, h.zLen]), htl, List.getElem?_take_of_lt hk]
    simp only [hk, and_true]
  have hvel : (cfg.flt.getX o'.filter)[o.dimZ + k]? =
      if o.once[i]? = some false then some 0 else (cfg.flt.getX f)[o.dimZ + k]? := by
    rw [g3, List.getElem?_append_right (by rw [maskAssign_length, htl]; omega),
      maskAssign_length, htl, Nat.add_sub_cancel_left, maskAssign_get _ _ _ (by simp [hdl]), hdl,
      List.getElem?_map, honce, List.getElem?_drop]
    simp only [hk, and_true, List.getElem?_replicate, if_true]
    have hio : i < o.once.length := by rw [h.onceLen]; exact hi
    rw [List.getElem?_eq_getElem hio]
    cases o.once[i] <;> simp
  refine ⟨?_, ?_, ?_, ?_⟩
  · intro hs; rw [hpos, if_pos (hsnap.mp hs)]
  · intro hs; rw [hpos, if_neg (fun x => hs (hsnap.mpr x))]
  · intro hs; rw [hvel, if_pos hs]
  · intro hs; rw [hvel, hs]; simp

/-- the same for the whole `hit` -/
theorem hitObj_sensors {cfg : Cfg K L D F X} {h : Ref → Det K L X} {g c : Nat} {o : Obj K L D F}
    {r : Ref} {period : Int} (hl : o.pointHits.length = o.numPoints)
    (he : (hitObj cfg h g c o r period).err = none) :
    ∃ a b hc d e f, SensorsOk cfg (h r) period
      { o with past := a, lastDet := b, hitCounter := hc, isInit := d, id := e, globalId := f }
      (hitObj cfg h g c o r period).obj := by
  cases hc : condAdd cfg.pastLen o.age h o.past r with
  | none => rw [hitObj_none hc] at he; cases he
  | some p =>
    have hag : ∃ a, p.1 r = { h r with age := a } :=
      ((agesOnly_condAdd (h' := p.1) (past' := p.2) hc) r).1
    rw [hitObj_some (heap' := p.1) (past' := p.2) hc] at he ⊢
    simp only at he ⊢
    obtain ⟨x1, x2, x3, x4, x5, x6, ex⟩ : ∃ a b hc d e f, hitCounters cfg g c o r period p.2 =
        { o with past := a, lastDet := b, hitCounter := hc, isInit := d, id := e, globalId := f } := by
      unfold hitCounters
      split
      · exact ⟨_, _, _, _, _, _, rfl⟩
      · exact ⟨_, _, _, _, _, _, rfl⟩
    refine ⟨x1, x2, x3, x4, x5, x6, ?_⟩
    rw [← ex]
    obtain ⟨a, ha⟩ := hag
    have hS := hitSensors_ok (cfg := cfg) (d := p.1 r) (period := period)
      (o := hitCounters cfg g c o r period p.2) (by rw [ex]; exact hl) he
    have key : hitSensors cfg (p.1 r) period (hitCounters cfg g c o r period p.2) =
        hitSensors cfg (h r) period (hitCounters cfg g c o r period p.2) := by rw [ha]; rfl
    rw [key] at he ⊢
    exact hitSensors_ok (by rw [ex]; exact hl) he

end

end Norfair
