import Verif.Model.Metrics
import Verif.Props.InformationFile
import Mathlib.Data.List.Sort
import Mathlib.Algebra.CharZero.Defs
import Mathlib.Algebra.Ring.Rat
import Mathlib.Algebra.Order.Ring.Rat
import Mathlib.Tactic.Ring

/-!
C55, C56: files of predictions and of detections.
-/

namespace Norfair.Props

open Norfair

variable {K : Type}

/-! ### C55: predictions -/

/-- a prediction with an id and a box -/
def PredOk (p : Pred K) : Prop :=
  ∃ id x0 y0 x1 y1 a b c, p.id = some id ∧ p.estimate = (x0 :: y0 :: a) :: (x1 :: y1 :: b) :: c

/-- the fields of the line of a prediction -/
def lineFields [Sub K] (fmt : K → Str) (frame id : ℤ) (x0 y0 x1 y1 : K) : List Str :=
  [intStr frame, intStr id, fmt x0, fmt y0, fmt (x1 - x0), fmt (y1 - y0), "-1".toList, "-1".toList,
    "-1".toList, "-1".toList]

/-- C55: the line of a prediction has ten fields, separated by commas: frame, id, left, top, width, height
and four times -1. -/
theorem C55_line [Sub K] (fmt : K → Str) (frame : ℤ) (p : Pred K) (id : ℤ) (x0 y0 x1 y1 : K)
    (a b : List K) (c : List (List K)) (hid : p.id = some id)
    (he : p.estimate = (x0 :: y0 :: a) :: (x1 :: y1 :: b) :: c) :
    predLine fmt frame p = some (List.intercalate ",".toList (lineFields fmt frame id x0 y0 x1 y1)) := by
  simp [predLine, Pred.box, Pred.entry, hid, he, lineFields, List.intercalate, List.intersperse]

/-- one call of `update` -/
structure PredCall (K : Type) where
  preds : List (Pred K)
  frame : Option ℤ

/-- a sequence of updates; `none` if one raises -/
def predRun [Sub K] (fmt : K → Str) : PredFile → List (PredCall K) → Option PredFile
  | s, [] => some s
  | s, q :: qs =>
    match s.update fmt q.preds q.frame with
    | (_, true) => none
    | (s, false) => predRun fmt s qs

/-- the lines of the predictions of one call, each with a newline -/
def callText [Sub K] (fmt : K → Str) (frame : ℤ) (ps : List (Pred K)) : Str :=
  ps.flatMap fun p => (predLine fmt frame p).getD [] ++ ['\n']

theorem predLine_ok [Sub K] (fmt : K → Str) (frame : ℤ) (p : Pred K) (h : PredOk p) :
    ∃ l, predLine fmt frame p = some l := by
  obtain ⟨id, x0, y0, x1, y1, a, b, c, h1, h2⟩ := h
  exact ⟨_, C55_line fmt frame p id x0 y0 x1 y1 a b c h1 h2⟩

theorem writeAll_ok [Sub K] (fmt : K → Str) (frame : ℤ) (ps : List (Pred K)) (hp : ∀ p ∈ ps, PredOk p)
    (s : PredFile) (hc : s.closed = false ∨ ps = []) :
    PredFile.writeAll fmt frame s ps = ({ s with text := s.text ++ callText fmt frame ps }, false) := by
  induction ps generalizing s with
  | nil => simp [PredFile.writeAll, callText]
  | cons p ps ih =>
    obtain ⟨l, hl⟩ := predLine_ok fmt frame p (hp p (List.mem_cons_self ..))
    have hc : s.closed = false := by rcases hc with h | h; exact h; cases h
    rw [PredFile.writeAll, hl]
    simp only [hc, Bool.false_eq_true, if_false]
    rw [ih (fun p h => hp p (List.mem_cons_of_mem _ h)) _ (Or.inl rfl)]
    simp [callText, hl]

/-- the text of a sequence of calls, the first of which is the `k`-th (from 1) -/
def runText [Sub K] (fmt : K → Str) (k : Nat) (qs : List (PredCall K)) : Str :=
  (qs.zipIdx k).flatMap fun q => callText fmt (q.1.frame.getD q.2) q.1.preds

/-- C55: Each update writes one line per prediction, in order, with the number of the frame: the one given or
the number of the update. The file is closed exactly by the update number `seqLength` (by the first one if
`seqLength` is 0). After that updates without predictions still do nothing. -/
theorem C55_file [Sub K] (fmt : K → Str) (n : Nat) (qs : List (PredCall K))
    (hp : ∀ q ∈ qs, ∀ p ∈ q.preds, PredOk p)
    (hn : ∀ q ∈ qs.drop (max n 1), q.preds = []) :
    ∃ s, predRun fmt (PredFile.init (.int n)) qs = some s ∧ s.text = runText fmt 1 qs ∧
      (s.closed = true ↔ 1 ≤ qs.length ∧ n ≤ qs.length) ∧ s.frameNumber = qs.length + 1 := by
  have key : ∀ (k : Nat) (s : PredFile), s.length = .int n → s.frameNumber = k + 1 →
      (s.closed = true ↔ 1 ≤ k ∧ n ≤ k) → (∀ q ∈ qs.drop (max n 1 - k), q.preds = []) →
      ∃ s', predRun fmt s qs = some s' ∧ s'.text = s.text ++ runText fmt (k + 1) qs ∧
        (s'.closed = true ↔ 1 ≤ k + qs.length ∧ n ≤ k + qs.length) ∧
        s'.frameNumber = (k + qs.length : Nat) + 1 := by
    clear hn
    induction qs with
    | nil =>
      intro k s h1 h2 h3 _
      exact ⟨s, rfl, by simp [runText], by simpa using h3, by simpa using h2⟩
    | cons q qs ih =>
      intro k s h1 h2 h3 h4
      have hc : s.closed = false ∨ q.preds = [] := by
        by_cases hk : 1 ≤ k ∧ n ≤ k
        · right
          apply h4
          rw [show max n 1 - k = 0 by omega]
          simp
        · left
          rw [← Bool.not_eq_true, h3]; exact hk
      have hw := writeAll_ok fmt (q.frame.getD s.frameNumber) q.preds (hp q (List.mem_cons_self ..)) s hc
      have hfr : q.frame.getD s.frameNumber = q.frame.getD ((k + 1 : Nat) : ℤ) := by rw [h2]; rfl
      have hu : s.update fmt q.preds q.frame =
          (if s.frameNumber + 1 > n then
            ⟨.int n, s.frameNumber + 1, s.text ++ callText fmt (q.frame.getD s.frameNumber) q.preds, true⟩
          else ⟨.int n, s.frameNumber + 1, s.text ++ callText fmt (q.frame.getD s.frameNumber) q.preds,
            s.closed⟩, false) := by
        unfold PredFile.update
        rw [hw]
        simp only [h1]
      rw [predRun, hu]
      simp only
      have h4' : ∀ q' ∈ qs.drop (max n 1 - (k + 1)), q'.preds = [] := by
        intro q' hq'
        apply h4
        by_cases hk : max n 1 - k = 0
        · rw [hk]
          exact List.mem_cons_of_mem _ (List.mem_of_mem_drop hq')
        · rw [show max n 1 - k = (max n 1 - (k + 1)) + 1 by omega, List.drop_succ_cons]
          exact hq'
      obtain ⟨s', e1, e2, e3, e4⟩ := ih (fun q h => hp q (List.mem_cons_of_mem _ h)) (k + 1)
        (if s.frameNumber + 1 > n then
            ⟨.int n, s.frameNumber + 1, s.text ++ callText fmt (q.frame.getD s.frameNumber) q.preds, true⟩
          else ⟨.int n, s.frameNumber + 1, s.text ++ callText fmt (q.frame.getD s.frameNumber) q.preds,
            s.closed⟩)
        (by split <;> rfl) (by split <;> simp [h2]) (by
          rw [h2]
          split
          · simp; omega
          · simp only [h3]; omega) h4'
      refine ⟨s', e1, ?_, ?_, ?_⟩
      · rw [e2]
        have : (if s.frameNumber + 1 > (n : ℤ) then
            (⟨.int n, s.frameNumber + 1, s.text ++ callText fmt (q.frame.getD s.frameNumber) q.preds, true⟩ : PredFile)
          else ⟨.int n, s.frameNumber + 1, s.text ++ callText fmt (q.frame.getD s.frameNumber) q.preds,
            s.closed⟩).text = s.text ++ callText fmt (q.frame.getD s.frameNumber) q.preds := by
          split <;> rfl
        rw [this, hfr]
        simp [runText, List.zipIdx_cons, List.append_assoc]
      · rw [e3, List.length_cons]; omega
      · rw [e4, List.length_cons]; push_cast; ring
  obtain ⟨s, h1, h2, h3, h4⟩ := key 0 (PredFile.init (.int n)) rfl rfl (by simp [PredFile.init]) (by simpa using hn)
  exact ⟨s, h1, by simpa [PredFile.init] using h2, by simpa using h3, by simpa using h4⟩

/-- C55: after the file was closed, a prediction makes `update` raise, and the text stays as it is -/
theorem C55_closed [Sub K] (fmt : K → Str) (s : PredFile) (hs : s.closed = true) (p : Pred K)
    (ps : List (Pred K)) (frame : Option ℤ) : s.update fmt (p :: ps) frame = (s, true) := by
  unfold PredFile.update
  rw [PredFile.writeAll]
  cases predLine fmt (frame.getD s.frameNumber) p <;> simp [hs]

/-! ### Reading numbers back -/

/-- split at a character -/
def splitAt (sep : Char) : Str → List Str
  | [] => [[]]
  | c :: s => if c = sep then [] :: splitAt sep s else
      match splitAt sep s with
      | [] => [[c]]
      | l :: ls => (c :: l) :: ls

/-- what `np.loadtxt` reads: a row of numbers for each line -/
def readMatrix (parse : Str → Option K) (text : Str) : Option (List (List K)) :=
  (splitlines text).mapM fun l => (splitAt ',' l).mapM parse

theorem splitAt_append (sep : Char) (l s : Str) (hl : sep ∉ l) :
    splitAt sep (l ++ sep :: s) = l :: splitAt sep s := by
  induction l with
  | nil => simp [splitAt]
  | cons c l ih =>
    have hc : c ≠ sep := fun h => hl (h ▸ List.mem_cons_self ..)
    rw [List.cons_append, splitAt, if_neg hc, ih fun h => hl (List.mem_cons_of_mem _ h)]

theorem splitAt_self (sep : Char) (l : Str) (hl : sep ∉ l) : splitAt sep l = [l] := by
  induction l with
  | nil => rfl
  | cons c l ih =>
    have hc : c ≠ sep := fun h => hl (h ▸ List.mem_cons_self ..)
    rw [splitAt, if_neg hc, ih fun h => hl (List.mem_cons_of_mem _ h)]

theorem splitAt_intercalate (sep : Char) (l : Str) (ls : List Str) (h : ∀ l' ∈ l :: ls, sep ∉ l') :
    splitAt sep (List.intercalate [sep] (l :: ls)) = l :: ls := by
  induction ls generalizing l with
  | nil => simpa [List.intercalate] using splitAt_self sep l (h l (List.mem_cons_self ..))
  | cons l' ls ih =>
    have : List.intercalate [sep] (l :: l' :: ls) = l ++ sep :: List.intercalate [sep] (l' :: ls) := by
      simp [List.intercalate, List.intersperse]
    rw [this, splitAt_append sep l _ (h l (List.mem_cons_self ..)),
      ih l' fun q hq => h q (List.mem_cons_of_mem _ hq)]

/-- reading and writing of numbers fit together -/
structure NumFormat [Ring K] (fmt : K → Str) (parse : Str → Option K) : Prop where
  roundtrip : ∀ x, parse (fmt x) = some x
  int : ∀ n : ℤ, parse (intStr n) = some (n : K)
  oneLine : ∀ x, OneLine (fmt x)
  noComma : ∀ x, ',' ∉ fmt x

theorem natStr_chars (n : Nat) : ∀ c ∈ natStr n, ∃ d < 10, c = digitChar d := by
  obtain ⟨ds, h1, -, h3, -⟩ := natStr_eq n
  rw [h1]
  intro c hc
  obtain ⟨d, hd, rfl⟩ := List.mem_map.mp hc
  exact ⟨d, h3 d (List.mem_reverse.mp hd), rfl⟩

theorem digitChar_facts : ∀ d < 10, isLineBreak (digitChar d) = false ∧ digitChar d ≠ ',' := by decide

theorem intStr_facts (n : ℤ) : OneLine (intStr n) ∧ ',' ∉ intStr n := by
  have key : ∀ c ∈ intStr n, isLineBreak c = false ∧ c ≠ ',' := by
    intro c hc
    unfold intStr at hc
    have hd : ∀ c ∈ natStr n.natAbs, isLineBreak c = false ∧ c ≠ ',' := by
      intro c hc
      obtain ⟨d, hd, rfl⟩ := natStr_chars _ c hc
      exact digitChar_facts d hd
    split at hc
    · rcases List.mem_cons.mp hc with rfl | hc
      · decide
      · exact hd c hc
    · exact hd c hc
  exact ⟨fun c hc => (key c hc).1, fun h => (key _ h).2 rfl⟩

/-- the row of numbers of a prediction -/
def predRow [Ring K] (frame id : ℤ) (x0 y0 x1 y1 : K) : List K :=
  [(frame : K), (id : K), x0, y0, x1 - x0, y1 - y0, -1, -1, -1, -1]

theorem line_oneLine [Ring K] (fmt : K → Str) (parse : Str → Option K) (hf : NumFormat fmt parse) (frame id : ℤ)
    (x0 y0 x1 y1 : K) :
    OneLine (List.intercalate ",".toList (lineFields fmt frame id x0 y0 x1 y1)) := by
  have h1 := hf.oneLine
  have hsep : OneLine ",".toList := by decide
  have hm1 : OneLine "-1".toList := by decide
  have happ : ∀ a b : Str, OneLine a → OneLine b → OneLine (a ++ b) := by
    intro a b ha hb c hc
    rcases List.mem_append.mp hc with hc | hc
    · exact ha c hc
    · exact hb c hc
  have hi : ∀ (l : List Str), (∀ s ∈ l, OneLine s) → OneLine (List.intercalate ",".toList l) := by
    intro l
    induction l with
    | nil => intro _ c hc; simp [List.intercalate] at hc
    | cons a l ih =>
      intro hl
      cases l with
      | nil => simpa [List.intercalate] using hl a (List.mem_cons_self ..)
      | cons b l =>
        have : List.intercalate ",".toList (a :: b :: l) =
            a ++ (",".toList ++ List.intercalate ",".toList (b :: l)) := by
          simp [List.intercalate, List.intersperse]
        rw [this]
        exact happ _ _ (hl a (List.mem_cons_self ..))
          (happ _ _ hsep (ih fun s hs => hl s (List.mem_cons_of_mem _ hs)))
  apply hi
  intro s hs
  simp only [lineFields, List.mem_cons, List.not_mem_nil, or_false] at hs
  rcases hs with rfl | rfl | rfl | rfl | rfl | rfl | rfl | rfl | rfl | rfl
  any_goals exact hm1
  · exact (intStr_facts _).1
  · exact (intStr_facts _).1
  all_goals exact h1 _

theorem splitlines_ended (lines : List Str) (hl : ∀ l ∈ lines, OneLine l) :
    splitlines (lines.flatMap fun l => l ++ ['\n']) = lines := by
  induction lines with
  | nil => rfl
  | cons l ls ih =>
    rw [List.flatMap_cons, List.append_assoc, List.singleton_append,
      splitlines_append l (hl l (List.mem_cons_self ..)) _ (by decide),
      ih (fun l h => hl l (List.mem_cons_of_mem _ h))]

theorem mapM_some {α β : Type} (f : α → Option β) (g : α → β) (l : List α) (h : ∀ a ∈ l, f a = some (g a)) :
    l.mapM f = some (l.map g) := by
  induction l with
  | nil => rfl
  | cons a l ih =>
    simp [List.mapM_cons, h a (List.mem_cons_self ..), ih fun a ha => h a (List.mem_cons_of_mem _ ha)]

/-- a prediction of a box with corners `(x0, y0)` and `(x1, y1)` -/
structure BoxPred (K : Type) where
  id : ℤ
  x0 : K
  y0 : K
  x1 : K
  y1 : K

/-- as a tracked object -/
def BoxPred.pred (b : BoxPred K) : Pred K := ⟨some b.id, [[b.x0, b.y0], [b.x1, b.y1]]⟩

/-- C55: reading the file gives back the rows of numbers, one for each prediction -/
theorem C55_read [Ring K] (fmt : K → Str) (parse : Str → Option K) (hf : NumFormat fmt parse) (k : Nat)
    (frames : List (List (BoxPred K))) :
    readMatrix parse (runText fmt k (frames.map fun bs => ⟨bs.map BoxPred.pred, none⟩)) =
      some ((frames.zipIdx k).flatMap fun f => f.1.map fun b => predRow f.2 b.id b.x0 b.y0 b.x1 b.y1) := by
  have hline : ∀ (fr : ℤ) (b : BoxPred K), predLine fmt fr b.pred =
      some (List.intercalate ",".toList (lineFields fmt fr b.id b.x0 b.y0 b.x1 b.y1)) := fun fr b =>
    C55_line fmt fr b.pred b.id b.x0 b.y0 b.x1 b.y1 [] [] [] rfl rfl
  have h1 : runText fmt k (frames.map fun bs => ⟨bs.map BoxPred.pred, none⟩) =
      ((frames.zipIdx k).flatMap fun f => f.1.map fun b =>
        List.intercalate ",".toList (lineFields fmt f.2 b.id b.x0 b.y0 b.x1 b.y1)).flatMap
          fun l => l ++ ['\n'] := by
    unfold runText callText
    rw [List.zipIdx_map, List.flatMap_map, List.flatMap_assoc]
    congr 1
    funext f
    simp [List.flatMap_map, hline]
  have hm1 : parse "-1".toList = some (-1) := by
    have := hf.int (-1)
    rw [show intStr (-1) = "-1".toList by decide +kernel] at this
    simpa using this
  unfold readMatrix
  rw [h1, splitlines_ended _ (by
    intro l hl
    obtain ⟨f, -, hl⟩ := List.mem_flatMap.mp hl
    obtain ⟨b, -, rfl⟩ := List.mem_map.mp hl
    exact line_oneLine fmt parse hf _ _ _ _ _ _)]
  have hrow : ∀ (fr : ℤ) (b : BoxPred K),
      (splitAt ',' (List.intercalate ",".toList (lineFields fmt fr b.id b.x0 b.y0 b.x1 b.y1))).mapM parse =
        some (predRow fr b.id b.x0 b.y0 b.x1 b.y1) := by
    intro fr b
    have hc : ∀ l ∈ lineFields fmt fr b.id b.x0 b.y0 b.x1 b.y1, ',' ∉ l := by
      intro s hs
      have hm : ',' ∉ "-1".toList := by decide
      simp only [lineFields, List.mem_cons, List.not_mem_nil, or_false] at hs
      rcases hs with rfl | rfl | rfl | rfl | rfl | rfl | rfl | rfl | rfl | rfl
      any_goals exact hm
      · exact (intStr_facts _).2
      · exact (intStr_facts _).2
      all_goals exact hf.noComma _
    have := splitAt_intercalate ',' (intStr fr) (lineFields fmt fr b.id b.x0 b.y0 b.x1 b.y1).tail hc
    have h2 : splitAt ',' (List.intercalate ",".toList (lineFields fmt fr b.id b.x0 b.y0 b.x1 b.y1)) =
        lineFields fmt fr b.id b.x0 b.y0 b.x1 b.y1 := this
    rw [h2]
    simp only [lineFields, List.mapM_cons, List.mapM_nil, hf.roundtrip, hf.int, hm1, predRow]
    rfl
  generalize frames.zipIdx k = fs
  induction fs with
  | nil => rfl
  | cons f fs ih =>
    rw [List.flatMap_cons, List.flatMap_cons, List.mapM_append, ih, List.mapM_map,
      mapM_some ((fun l => (splitAt ',' l).mapM parse) ∘ fun b : BoxPred K =>
          List.intercalate ",".toList (lineFields fmt (f.2 : ℤ) b.id b.x0 b.y0 b.x1 b.y1))
        (fun b : BoxPred K => predRow (f.2 : ℤ) b.id b.x0 b.y0 b.x1 b.y1) f.1
        (fun b _ => hrow f.2 b)]
    rfl

/-! ### C56: detections -/

/-- the detection of a row of `det.txt`: the corners of the box and twice the confidence -/
def detOf [Ring K] (r : List K) : ParsedDet K where
  points := [[r.getD 2 0, r.getD 3 0], [r.getD 2 0 + r.getD 4 0, r.getD 3 0 + r.getD 5 0]]
  scores := [r.getD 6 0, r.getD 6 0]

/-- what `m[np.argsort(m[:, 0])]` does: it orders the rows by the first column, equal ones in any order -/
def SortsByFrame [LinearOrder K] [Ring K] (sortRows : List (List K) → List (List K)) : Prop :=
  ∀ rows, (sortRows rows).Perm rows ∧ (sortRows rows).Pairwise fun a b => a.getD 0 0 ≤ b.getD 0 0

theorem exists_seven {r : List K} (h : 7 ≤ r.length) : ∃ a b c d e f g l, r = a :: b :: c :: d :: e :: f :: g :: l := by
  match r, h with
  | a :: b :: c :: d :: e :: f :: g :: l, _ => exact ⟨a, b, c, d, e, f, g, l, rfl⟩

/-- C56: a file with at least two rows, all of the same length, at least 7, is read without an exception,
and the lists of detections are those of the rows of the frames 1 to `seqLength`, in sorted file order. -/
theorem C56_read_partial [Ring K] [LinearOrder K] (sortRows : List (List K) → List (List K))
    (hs : SortsByFrame sortRows) (rows : List (List K)) (hr : 2 ≤ rows.length) (w : Nat) (hw : 7 ≤ w)
    (hrw : ∀ r ∈ rows, r.length = w) (n : Nat) :
    DetParser.init sortRows rows (.int n) = some ⟨1, n, (List.range' 1 n).map fun k : Nat =>
      ((sortRows rows).filter fun r => r.head? == some (k : K)).map detOf⟩ := by
  unfold DetParser.init
  have hany : (rows.any fun r => r.length != (rows.headD []).length) = false := by
    have hhd : (rows.headD []).length = w := by
      cases rows with
      | nil => simp at hr
      | cons r rs => exact hrw r (List.mem_cons_self ..)
    rw [hhd, List.any_eq_false]
    intro r h
    simp [hrw r h]
  rw [if_neg (by omega), hany]
  have hlen : ∀ r ∈ sortRows rows, 7 ≤ r.length := fun r h => by
    rw [hrw r ((hs rows).1.mem_iff.mp h)]; exact hw
  set corners : List K → List K := fun r => (r.set 4 (r.getD 2 0 + r.getD 4 0)).set 5 (r.getD 3 0 + r.getD 5 0)
    with hcorners
  rw [mapM_some rowCorners corners (sortRows rows) (by
    intro r h
    obtain ⟨a, b, c, d, e, f, g, l, rfl⟩ := exists_seven (hlen r h)
    rfl)]
  simp only [Bool.false_eq_true, if_false]
  rw [mapM_some (detsFromFrame _) (fun k : Nat =>
    ((sortRows rows).filter fun r => r.head? == some (k : K)).map detOf) _ (by
      intro k _
      unfold detsFromFrame
      rw [List.filter_map, List.mapM_map]
      have : ((fun r : List K => r.head? == some (k : K)) ∘ corners) = fun r => r.head? == some (k : K) := by
        funext r
        cases r <;> rfl
      rw [this]
      refine mapM_some _ _ _ ?_
      intro r h
      obtain ⟨a, b, c, d, e, f, g, l, rfl⟩ := exists_seven (hlen r (List.mem_filter.mp h).1)
      rfl)]
  rfl

/-- C56: a file with exactly one detection cannot be read (nor can an empty one) -/
theorem C56_single_row [Ring K] [LinearOrder K] (sortRows : List (List K) → List (List K)) (r : List K)
    (length : InfoValue) : DetParser.init sortRows [r] length = none ∧
      DetParser.init sortRows ([] : List (List K)) length = none := ⟨rfl, rfl⟩

/-- call `next` several times -/
def nexts : Nat → DetParser K → List (Step (List (ParsedDet K)))
  | 0, _ => []
  | m + 1, s => s.next.2 :: nexts m s.next.1

/-- the state after several calls of `next` -/
def afterNexts : Nat → DetParser K → DetParser K
  | 0, s => s
  | m + 1, s => afterNexts m s.next.1

/-- C56: iterating gives the lists, in order, and then stops for ever; iterating again, at any time, starts
over. -/
theorem C56_iterate [Ring K] [LinearOrder K] (sortRows : List (List K) → List (List K))
    (rows : List (List K)) (n : Nat) (s : DetParser K)
    (hi : DetParser.init sortRows rows (.int n) = some s) (m m' : Nat) :
    s.sortedByFrame.length = n ∧
    nexts m' (afterNexts m s).iter =
      (s.sortedByFrame.take m').map .item ++ List.replicate (m' - n) .stop := by
  have hlen : s.sortedByFrame.length = n ∧ s.length = n := by
    unfold DetParser.init at hi
    split at hi
    · cases hi
    · split at hi
      · cases hi
      · split at hi
        · cases hi
        · cases hi
        · rename_i hn
          cases hn
          obtain ⟨l, hl, rfl⟩ := Option.map_eq_some_iff.mp hi
          refine ⟨?_, rfl⟩
          have : ∀ (ks : List Nat) (l : List (List (ParsedDet K))),
              ks.mapM (detsFromFrame ‹_›) = some l → l.length = ks.length := by
            intro ks
            induction ks with
            | nil => intro l h; cases h; rfl
            | cons k ks ih =>
              intro l h
              simp only [List.mapM_cons, Option.bind_eq_bind, Option.bind_eq_some_iff, Option.pure_def,
                Option.some.injEq] at h
              obtain ⟨a, -, l', h', rfl⟩ := h
              simp [ih l' h']
          simpa using this _ _ hl
  refine ⟨hlen.1, ?_⟩
  have hstate : ∀ (m : Nat) (s' : DetParser K), s'.sortedByFrame = s.sortedByFrame → s'.length = n →
      (afterNexts m s').sortedByFrame = s.sortedByFrame ∧ (afterNexts m s').length = n := by
    intro m
    induction m with
    | zero => intro s' h1 h2; exact ⟨h1, h2⟩
    | succ m ih =>
      intro s' h1 h2
      apply ih
      · unfold DetParser.next
        split
        · simp only; split <;> exact h1
        · exact h1
      · unfold DetParser.next
        split
        · simp only; split <;> exact h2
        · exact h2
  have hrun : ∀ (m' : Nat) (s' : DetParser K), s'.sortedByFrame = s.sortedByFrame → s'.length = n →
      1 ≤ s'.frameNumber → nexts m' s' =
        ((s.sortedByFrame.drop (s'.frameNumber - 1)).take m').map .item ++
          List.replicate (m' - (n - (s'.frameNumber - 1))) .stop := by
    intro m'
    induction m' with
    | zero => intro s' _ _ _; simp [nexts]
    | succ m' ih =>
      intro s' h1 h2 h3
      rw [nexts]
      by_cases hf : s'.frameNumber ≤ n
      · have hlt : s'.frameNumber - 1 < s.sortedByFrame.length := by omega
        have hnext : s'.next = ({ s' with frameNumber := s'.frameNumber + 1 },
            .item s.sortedByFrame[s'.frameNumber - 1]) := by
          unfold DetParser.next
          rw [if_pos (by omega)]
          simp only [h1, show s'.frameNumber + 1 - 2 = s'.frameNumber - 1 by omega,
            List.getElem?_eq_getElem hlt]
        rw [hnext]
        have e := ih { s' with frameNumber := s'.frameNumber + 1 } h1 h2 (Nat.succ_pos _)
        simp only [Nat.add_sub_cancel] at e ⊢
        rw [e]
        rw [List.drop_eq_getElem_cons hlt, List.take_succ_cons, List.map_cons, List.cons_append,
          show s'.frameNumber - 1 + 1 = s'.frameNumber by omega,
          show m' - (n - s'.frameNumber) = m' + 1 - (n - (s'.frameNumber - 1)) by omega]
      · have hnext : s'.next = (s', .stop) := by
          unfold DetParser.next
          rw [if_neg (by omega)]
        rw [hnext]
        simp only
        rw [ih _ h1 h2 h3, List.drop_eq_nil_of_le (by omega)]
        simp only [List.take_nil, List.map_nil, List.nil_append]
        rw [show m' + 1 - (n - (s'.frameNumber - 1)) = (m' - (n - (s'.frameNumber - 1))) + 1 by omega,
          List.replicate_succ]
  have h := hstate m s rfl hlen.2
  have := hrun m' (afterNexts m s).iter h.1 h.2 (le_refl 1)
  simpa [DetParser.iter] using this

/-- C56: the `k`-th list has the detections of exactly the rows of frame `k`, each once -/
theorem C56_frame_partial [Ring K] [LinearOrder K] (sortRows : List (List K) → List (List K))
    (hs : SortsByFrame sortRows) (rows : List (List K)) (hr : 2 ≤ rows.length) (w : Nat) (hw : 7 ≤ w)
    (hrw : ∀ r ∈ rows, r.length = w) (n k : Nat) (hk : 1 ≤ k) (hkn : k ≤ n) :
    ∃ s, DetParser.init sortRows rows (.int n) = some s ∧ s.sortedByFrame.length = n ∧
      (s.sortedByFrame.getD (k - 1) []).Perm ((rows.filter fun r => r.head? == some (k : K)).map detOf) := by
  refine ⟨_, C56_read_partial sortRows hs rows hr w hw hrw n, by simp, ?_⟩
  have : ((List.range' 1 n).map fun k : Nat =>
      ((sortRows rows).filter fun r => r.head? == some (k : K)).map detOf).getD (k - 1) [] =
      ((sortRows rows).filter fun r => r.head? == some (k : K)).map detOf := by
    have hlt : k - 1 < ((List.range' 1 n).map fun k : Nat =>
      ((sortRows rows).filter fun r => r.head? == some (k : K)).map detOf).length := by simp; omega
    rw [List.getD_eq_getElem?_getD, List.getElem?_eq_getElem hlt, Option.getD_some, List.getElem_map,
      List.getElem_range', show 1 + 1 * (k - 1) = k by omega]
  simp only [this]
  exact ((hs rows).1.filter _).map _

theorem flatMap_filter_perm {α β : Type} (p : β → α → Bool) (rows : List α) (ks : List β)
    (h : ∀ r ∈ rows, ∀ a b, a ∈ ks → b ∈ ks → p a r = true → p b r = true → a = b) (hnd : ks.Nodup) :
    (ks.flatMap fun k => rows.filter (p k)).Perm (rows.filter fun r => ks.any fun k => p k r) := by
  induction ks with
  | nil => simp
  | cons k ks ih =>
    rw [List.nodup_cons] at hnd
    rw [List.flatMap_cons]
    refine ((ih (fun r hr a b ha hb => h r hr a b (List.mem_cons_of_mem _ ha) (List.mem_cons_of_mem _ hb))
      hnd.2).append_left _).trans ?_
    clear ih
    induction rows with
    | nil => simp
    | cons r rows ih =>
      have ih := ih fun r hr => h r (List.mem_cons_of_mem _ hr)
      have hr := h r (List.mem_cons_self ..)
      simp only [List.filter_cons, List.any_cons]
      by_cases h1 : p k r = true
      · have h2 : (ks.any fun k => p k r) = false := by
          rw [List.any_eq_false]
          intro k' hk' h2
          have := hr k k' (List.mem_cons_self ..) (List.mem_cons_of_mem _ hk') h1 h2
          exact hnd.1 (this ▸ hk')
        simp only [h1, h2, Bool.or_false, if_true, Bool.false_eq_true, if_false, List.cons_append]
        exact List.Perm.cons r (by simpa using ih)
      · simp only [Bool.not_eq_true] at h1
        simp only [h1, Bool.false_or, Bool.false_eq_true, if_false]
        by_cases h2 : (ks.any fun k => p k r) = true
        · simp only [h2, if_true]
          exact (List.perm_middle).trans (List.Perm.cons r (by simpa using ih))
        · simp only [Bool.not_eq_true] at h2
          simp only [h2, Bool.false_eq_true, if_false]
          simpa using ih

/-- C56: taken together, the lists have the detections of exactly the rows whose frame is one of 1 to
`seqLength`, each once -/
theorem C56_once_partial [Ring K] [LinearOrder K] [CharZero K] (sortRows : List (List K) → List (List K))
    (hs : SortsByFrame sortRows) (rows : List (List K)) (hr : 2 ≤ rows.length) (w : Nat) (hw : 7 ≤ w)
    (hrw : ∀ r ∈ rows, r.length = w) (n : Nat) :
    ∃ s, DetParser.init sortRows rows (.int n) = some s ∧
      s.sortedByFrame.flatten.Perm
        ((rows.filter fun r => (List.range' 1 n).any fun k : Nat => r.head? == some (k : K)).map detOf) := by
  refine ⟨_, C56_read_partial sortRows hs rows hr w hw hrw n, ?_⟩
  show (List.flatten _).Perm _
  rw [← List.flatMap_def, ← List.map_flatMap]
  refine List.Perm.map _ ?_
  refine (flatMap_filter_perm (fun (k : Nat) (r : List K) => r.head? == some (k : K)) (sortRows rows) _
    ?_ (List.nodup_range')).trans ((hs rows).1.filter _)
  intro r _ a b _ _ ha hb
  simp only [beq_iff_eq] at ha hb
  rw [ha] at hb
  exact_mod_cast Option.some.inj hb

/-! ### The two classes together -/

/-- C55: `PredictionsTextFile` and `DetectionFileParser` fit together: reading the file of `n` frames of
predictions (at least two in all) gives for every frame the boxes of its predictions, each once. This is
with exact arithmetic. -/
theorem C55_roundtrip [Ring K] [LinearOrder K] [CharZero K] (fmt : K → Str) (parse : Str → Option K)
    (hf : NumFormat fmt parse) (sortRows : List (List K) → List (List K)) (hs : SortsByFrame sortRows)
    (frames : List (List (BoxPred K))) (h2 : 2 ≤ frames.flatten.length) :
    ∃ file rows s, predRun fmt (PredFile.init (.int frames.length))
        (frames.map fun bs => ⟨bs.map BoxPred.pred, none⟩) = some file ∧ file.closed = true ∧
      readMatrix parse file.text = some rows ∧
      DetParser.init sortRows rows (.int frames.length) = some s ∧
      ∀ k < frames.length, (s.sortedByFrame.getD k []).Perm ((frames.getD k []).map fun b =>
        ⟨[[b.x0, b.y0], [b.x1, b.y1]], [-1, -1]⟩) := by
  obtain ⟨file, e1, e2, e3, -⟩ := C55_file fmt frames.length
    (frames.map fun bs => ⟨bs.map BoxPred.pred, none⟩) (by
      intro q hq p hp
      obtain ⟨bs, -, rfl⟩ := List.mem_map.mp hq
      obtain ⟨b, -, rfl⟩ := List.mem_map.mp hp
      exact ⟨b.id, b.x0, b.y0, b.x1, b.y1, [], [], [], rfl, rfl⟩) (by
      intro q hq
      rw [List.drop_eq_nil_of_le (by simp)] at hq
      cases hq)
  have hne : 1 ≤ frames.length := by
    cases frames with
    | nil => simp at h2
    | cons => simp
  have e4 := C55_read fmt parse hf 1 frames
  rw [← e2] at e4
  set rows := (frames.zipIdx 1).flatMap fun f => f.1.map fun b => predRow (K := K) f.2 b.id b.x0 b.y0 b.x1 b.y1
    with hrows
  have hlen : ∀ (fs : List (List (BoxPred K))) (k : Nat), ((fs.zipIdx k).flatMap fun f => f.1.map fun b =>
      predRow (K := K) f.2 b.id b.x0 b.y0 b.x1 b.y1).length = fs.flatten.length := by
    intro fs
    induction fs with
    | nil => intro k; rfl
    | cons f fs ih => intro k; simp [List.zipIdx_cons, ih (k + 1)]
  have hw : ∀ r ∈ rows, r.length = 10 := by
    intro r hr
    obtain ⟨f, -, hr⟩ := List.mem_flatMap.mp hr
    obtain ⟨b, -, rfl⟩ := List.mem_map.mp hr
    rfl
  refine ⟨file, rows, _, e1, e3.mpr (by simp [hne]), e4,
    C56_read_partial sortRows hs rows (by rw [hrows, hlen]; exact h2) 10 (by norm_num) hw _, ?_⟩
  intro k hk
  obtain ⟨s', h1, -, h3⟩ := C56_frame_partial sortRows hs rows (by rw [hrows, hlen]; exact h2) 10 (by norm_num) hw
    frames.length (k + 1) (by omega) (by omega)
  rw [C56_read_partial sortRows hs rows (by rw [hrows, hlen]; exact h2) 10 (by norm_num) hw] at h1
  cases h1
  refine h3.trans (List.Perm.of_eq ?_)
  have hfil : ∀ (fs : List (List (BoxPred K))) (j k : Nat), ((fs.zipIdx (j + 1)).flatMap fun f => f.1.map fun b =>
      predRow (K := K) f.2 b.id b.x0 b.y0 b.x1 b.y1).filter (fun r => r.head? == some ((k + 1 : Nat) : K)) =
      if j ≤ k then (fs.getD (k - j) []).map fun b => predRow (K := K) (k + 1 : Nat) b.id b.x0 b.y0 b.x1 b.y1
      else [] := by
    intro fs
    induction fs with
    | nil => intro j k; simp
    | cons f fs ih =>
      intro j k
      rw [List.zipIdx_cons, List.flatMap_cons, List.filter_append, ih (j + 1) k]
      have hh : ∀ b : BoxPred K, ((predRow (K := K) ((j + 1 : Nat) : ℤ) b.id b.x0 b.y0 b.x1 b.y1).head? ==
          some ((k + 1 : Nat) : K)) = decide (j = k) := by
        intro b
        rw [Bool.eq_iff_iff]
        simp only [predRow, List.head?_cons, beq_iff_eq, Option.some.injEq, decide_eq_true_eq]
        rw [Int.cast_natCast]
        constructor
        · intro h
          have : j + 1 = k + 1 := by exact_mod_cast h
          omega
        · rintro rfl; rfl
      rw [List.filter_map]
      have hcomp : ((fun r : List K => r.head? == some ((k + 1 : Nat) : K)) ∘ fun b : BoxPred K =>
          predRow (K := K) ((j + 1 : Nat) : ℤ) b.id b.x0 b.y0 b.x1 b.y1) = fun _ => decide (j = k) := by
        funext b; exact hh b
      simp only [hcomp]
      rcases lt_trichotomy j k with hjk | hjk | hjk
      · rw [if_pos (by omega), if_pos (by omega)]
        simp [show j ≠ k by omega, show k - j = (k - (j + 1)) + 1 by omega]
      · subst hjk
        simp
      · rw [if_neg (by omega), if_neg (by omega)]
        simp [show j ≠ k by omega]
  rw [hrows, hfil frames 0 k, if_pos (Nat.zero_le _), List.map_map, Nat.sub_zero]
  refine List.map_congr_left fun b _ => ?_
  simp [detOf, predRow]

/-! ### Examples -/

/-- reading of integers -/
def toyParse : Str → Option ℤ
  | '-' :: s => (toyUnicode.parseInt s).map fun n : Nat => -(n : ℤ)
  | s => (toyUnicode.parseInt s).map fun n : Nat => (n : ℤ)

theorem toyFormat : NumFormat (K := ℤ) intStr toyParse := by
  have h : ∀ n : ℤ, toyParse (intStr n) = some n := by
    intro n
    unfold intStr
    split
    · rw [toyParse, parseInt_natStr _ toyUnicode_ok]
      show some _ = some _
      congr 1
      dsimp only
      omega
    · have hm : ∀ s, natStr n.natAbs ≠ '-' :: s := by
        intro s hs
        obtain ⟨d, hd, he⟩ := natStr_chars n.natAbs '-' (by rw [hs]; exact List.mem_cons_self ..)
        revert he
        have : ∀ d < 10, ¬ '-' = digitChar d := by decide
        exact this d hd
      rw [toyParse, parseInt_natStr _ toyUnicode_ok]
      · show some _ = some _
        congr 1
        dsimp only
        omega
      · exact hm
  exact ⟨h, fun n => by simpa using h n, fun x => (intStr_facts x).1, fun x => (intStr_facts x).2⟩

/-- sorting by the first column -/
def toySort [Ring K] [LinearOrder K] (rows : List (List K)) : List (List K) :=
  rows.insertionSort fun a b => a.getD 0 0 ≤ b.getD 0 0

theorem toySort_sorts [Ring K] [LinearOrder K] : SortsByFrame (K := K) toySort := by
  intro rows
  have : Std.Total (fun a b : List K => a.getD 0 0 ≤ b.getD 0 0) := ⟨fun a b => le_total _ _⟩
  have : IsTrans (List K) (fun a b : List K => a.getD 0 0 ≤ b.getD 0 0) := ⟨fun a b c => le_trans⟩
  exact ⟨List.perm_insertionSort _ rows, List.pairwise_insertionSort _ rows⟩

/-- two frames with three predictions -/
def toyFrames : List (List (BoxPred ℤ)) := [[⟨1, 10, 20, 30, 40⟩], [⟨1, 11, 21, 31, 41⟩, ⟨2, -5, 0, 5, 8⟩]]

/-- C55_roundtrip: hypotheses hold for two frames -/
example : NumFormat (K := ℤ) intStr toyParse ∧ SortsByFrame (K := ℤ) toySort ∧ 2 ≤ toyFrames.flatten.length :=
  ⟨toyFormat, toySort_sorts, by decide⟩

/-- C55_file, C55_closed: the text of the file, which is closed by the second update -/
example : ((predRun (K := ℤ) intStr (PredFile.init (.int 2))
      (toyFrames.map fun bs => ⟨bs.map BoxPred.pred, none⟩)).map fun s => (s.text, s.closed)) =
    some ("1,1,10,20,20,20,-1,-1,-1,-1\n2,1,11,21,20,20,-1,-1,-1,-1\n2,2,-5,0,10,8,-1,-1,-1,-1\n".toList, true) := by
  decide +kernel

/-- C55_file: the hypothesis about late calls -/
example : ∀ q ∈ (toyFrames.map fun bs => (⟨bs.map BoxPred.pred, none⟩ : PredCall ℤ)).drop (max 2 1), q.preds = [] := by
  simp [toyFrames]

/-- three rows of a file, not in the order of frames -/
def toyRows : List (List ℤ) := [[2, -1, 5, 5, 10, 10, 7], [1, -1, 1, 2, 3, 4, 9], [2, -1, 0, 0, 1, 1, 8]]

/-- C56: hypotheses, and the lists of three frames -/
example : 2 ≤ toyRows.length ∧ ∀ r ∈ toyRows, r.length = 7 := by decide

example : (DetParser.init toySort toyRows (.int 3)).map (fun s => nexts 4 s.iter) =
    some [.item [⟨[[1, 2], [4, 6]], [9, 9]⟩],
      .item [⟨[[5, 5], [15, 15]], [7, 7]⟩, ⟨[[0, 0], [1, 1]], [8, 8]⟩], .item [], .stop] := by
  decide +kernel

end Norfair.Props
