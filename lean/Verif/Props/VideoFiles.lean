import Mathlib.Data.List.TakeWhile
import Verif.Model.Video
import Verif.Props.InformationFile
import Verif.Props.Video

/-!
C60, C61, C62, C73, C74: output files, descriptions, frame sequences, sizes of shown frames, warnings.
-/

namespace Norfair.Props

open Norfair

variable {Fr K : Type}

/-! ### C60: output paths and codecs -/

/-- C60: an output path that is not a folder is used as it is -/
theorem C60_file (isdir : Str → Bool) (v : VideoCfg) (h : isdir v.outputPath = false) :
    v.outputFilePath isdir = v.outputPath := by
  simp [VideoCfg.outputFilePath, h]

theorem pySplit_ne_nil (sep : Char) (s : Str) : pySplit sep s ≠ [] := by
  cases s with
  | nil => simp [pySplit]
  | cons c s =>
    rw [pySplit]
    split
    · simp
    · split <;> simp

theorem pySplit_getLast (sep : Char) (s : Str) :
    (pySplit sep s).getLastD [] = (s.reverse.takeWhile (· ≠ sep)).reverse := by
  induction s with
  | nil => simp [pySplit]
  | cons c s ih =>
    rw [pySplit]
    have hne := pySplit_ne_nil sep s
    obtain ⟨l, ls, hl⟩ := List.exists_cons_of_ne_nil hne
    have htw : ((c :: s).reverse.takeWhile (· ≠ sep)) = if (∀ x ∈ s.reverse, x ≠ sep) then
        s.reverse ++ [c].takeWhile (· ≠ sep) else s.reverse.takeWhile (· ≠ sep) := by
      rw [List.reverse_cons, List.takeWhile_append]
      by_cases h : ∀ x ∈ s.reverse, x ≠ sep
      · have h1 : s.reverse.takeWhile (· ≠ sep) = s.reverse := by
          rw [List.takeWhile_eq_self_iff]; simpa using h
        rw [if_pos h, if_pos (by rw [h1])]
      · rw [if_neg h, if_neg]
        intro hh
        apply h
        have h1 : s.reverse.takeWhile (· ≠ sep) = s.reverse :=
          (List.takeWhile_prefix _).eq_of_length hh
        rw [List.takeWhile_eq_self_iff] at h1
        simpa using h1
    have hall : (∀ x ∈ s.reverse, x ≠ sep) ↔ ls = [] := by
      have : ∀ (s : Str) (l : Str) (ls : List Str), pySplit sep s = l :: ls → ((∀ x ∈ s, x ≠ sep) ↔ ls = []) := by
        intro s
        induction s with
        | nil => intro l ls h; simp [pySplit] at h; simp [h.2]
        | cons d s ih =>
          intro l ls h
          rw [pySplit] at h
          split at h
          · rename_i hd
            rw [List.cons.injEq] at h
            simp only [List.mem_cons, forall_eq_or_imp]
            constructor
            · intro hh; exact absurd hd hh.1
            · intro hh; exact absurd (h.2.trans hh) (pySplit_ne_nil sep s)
          · rename_i hd
            split at h
            · rename_i hs; exact absurd hs (pySplit_ne_nil sep s)
            · rename_i l' ls' hs
              rw [List.cons.injEq] at h
              simp only [List.mem_cons, forall_eq_or_imp]
              rw [ih l' ls' hs, h.2]
              simp [hd]
      have h2 := this s l ls hl
      simpa using h2
    by_cases hc : c = sep
    · rw [if_pos hc, htw]
      rw [hl] at ih ⊢
      by_cases ha : ∀ x ∈ s.reverse, x ≠ sep
      · rw [if_pos ha]
        have hls := hall.mp ha
        subst hls
        have h1 : s.reverse.takeWhile (· ≠ sep) = s.reverse := by
          rw [List.takeWhile_eq_self_iff]; simpa using ha
        rw [h1] at ih
        simpa [hc] using ih
      · rw [if_neg ha]
        simpa [List.getLastD] using ih
    · rw [if_neg hc, htw, hl]
      rw [hl] at ih
      simp only
      by_cases ha : ∀ x ∈ s.reverse, x ≠ sep
      · rw [if_pos ha]
        have hls := hall.mp ha
        subst hls
        have h1 : s.reverse.takeWhile (· ≠ sep) = s.reverse := by
          rw [List.takeWhile_eq_self_iff]; simpa using ha
        rw [h1] at ih
        simp [List.getLastD] at ih
        simp [hc, ih, List.getLastD]
      · rw [if_neg ha]
        have : ls ≠ [] := fun h => ha (hall.mpr h)
        obtain ⟨m, ms, rfl⟩ := List.exists_cons_of_ne_nil this
        simpa [List.getLastD] using ih

theorem pySplit_head (sep : Char) (s : Str) : (pySplit sep s).headD [] = s.takeWhile (· ≠ sep) := by
  induction s with
  | nil => simp [pySplit]
  | cons c s ih =>
    rw [pySplit]
    by_cases hc : c = sep
    · simp [hc]
    · rw [if_neg hc, List.takeWhile_cons, if_pos (by simpa using hc), ← ih]
      cases h : pySplit sep s with
      | nil => exact absurd h (pySplit_ne_nil sep s)
      | cons l ls => rfl

/-- the name of a file, without its folder -/
def IsName (p name : Str) : Prop := '/' ∉ name ∧ (p = name ∨ ∃ dir, p = dir ++ '/' :: name)

theorem pathTail_isName (p : Str) : IsName p (pathTail p) := by
  have hno : '/' ∉ pathTail p := by
    intro h
    rw [pathTail, List.mem_reverse] at h
    have := List.mem_takeWhile_imp h
    simp at this
  refine ⟨hno, ?_⟩
  have h := List.takeWhile_append_dropWhile (p := fun c => decide (c ≠ '/')) (l := p.reverse)
  have hp : p = (p.reverse.dropWhile fun c => decide (c ≠ '/')).reverse ++ pathTail p := by
    rw [pathTail, ← List.reverse_append]
    rw [h, List.reverse_reverse]
  cases hd : (p.reverse.dropWhile fun c => decide (c ≠ '/')) with
  | nil => left; rw [hd] at hp; simpa using hp
  | cons c rest =>
    right
    have hc : c = '/' := by
      have := List.head?_dropWhile_not (fun c => decide (c ≠ '/')) p.reverse
      rw [hd] at this
      simpa using this
    refine ⟨rest.reverse, ?_⟩
    rw [hd, hc] at hp
    simpa using hp

theorem IsName.unique {p a b : Str} (ha : IsName p a) (hb : IsName p b) : a = b := by
  have key : ∀ p a, IsName p a → pathTail p = a := by
    intro p a h
    rcases h.2 with rfl | ⟨dir, rfl⟩
    · rw [pathTail]
      have : p.reverse.takeWhile (fun c => decide (c ≠ '/')) = p.reverse := by
        rw [List.takeWhile_eq_self_iff]
        intro c hc
        simp only [decide_eq_true_eq]
        rintro rfl
        exact h.1 (List.mem_reverse.mp hc)
      rw [this, List.reverse_reverse]
    · rw [pathTail, List.reverse_append, List.reverse_cons, List.append_assoc, List.singleton_append]
      have : (a.reverse ++ '/' :: dir.reverse).takeWhile (fun c => decide (c ≠ '/')) = a.reverse := by
        rw [List.takeWhile_append_of_pos]
        · simp
        · intro c hc
          simp only [decide_eq_true_eq]
          rintro rfl
          exact h.1 (List.mem_reverse.mp hc)
      rw [this, List.reverse_reverse]
  rw [← key p a ha, ← key p b hb]

/-- C60: For a folder and an input file, the output is a file in the folder: the name of the input up to its first
dot, followed by `_out.` and the extension. -/
theorem C60_folder (isdir : Str → Bool) (v : VideoCfg) (h : isdir v.outputPath = true) (p name : Str)
    (hp : v.inputPath = some p) (hname : IsName p name) (hext : '/' ∉ v.outputExtension) :
    ∃ stem rest, name = stem ++ rest ∧ '.' ∉ stem ∧ (rest = [] ∨ rest.head? = some '.') ∧
      v.outputFilePath isdir = (if v.outputPath = [] ∨ v.outputPath.getLast? = some '/' then v.outputPath
        else v.outputPath ++ ['/']) ++ (stem ++ "_out.".toList ++ v.outputExtension) ∧
      IsName (v.outputFilePath isdir) (stem ++ "_out.".toList ++ v.outputExtension) := by
  have hn : name = pathTail p := IsName.unique hname (pathTail_isName p)
  have hout : v.outputFilePath isdir = pathJoin v.outputPath
      (name.takeWhile (· ≠ '.') ++ "_out.".toList ++ v.outputExtension) := by
    unfold VideoCfg.outputFilePath
    rw [h, hp]
    simp only [Bool.not_true, Bool.false_eq_true, if_false]
    rw [pySplit_getLast, pySplit_head, hn, pathTail]
  have hstem : '/' ∉ name.takeWhile (· ≠ '.') := fun hm => hname.1 (List.takeWhile_sublist _ |>.subset hm)
  have hfile : '/' ∉ name.takeWhile (· ≠ '.') ++ "_out.".toList ++ v.outputExtension := by
    simp only [List.mem_append, not_or]
    exact ⟨⟨hstem, by decide⟩, hext⟩
  have hhead : (name.takeWhile (· ≠ '.') ++ "_out.".toList ++ v.outputExtension).head? ≠ some '/' := fun hh =>
    hfile (List.mem_of_mem_head? (by rw [hh]; rfl))
  have hout' : v.outputFilePath isdir = (if v.outputPath = [] ∨ v.outputPath.getLast? = some '/' then v.outputPath
        else v.outputPath ++ ['/']) ++ (name.takeWhile (· ≠ '.') ++ "_out.".toList ++ v.outputExtension) := by
    rw [hout, pathJoin, if_neg hhead]
    split <;> simp
  refine ⟨name.takeWhile (· ≠ '.'), name.dropWhile (· ≠ '.'),
    (List.takeWhile_append_dropWhile).symm, ?_, ?_, hout', hfile, ?_⟩
  · intro hm
    have := List.mem_takeWhile_imp hm
    simp at this
  · cases hd : name.dropWhile (· ≠ '.') with
    | nil => left; rfl
    | cons c r =>
      right
      have := List.head?_dropWhile_not (fun c => decide (c ≠ '.')) name
      rw [hd] at this
      simpa using this
  · rw [hout']
    split
    · rename_i hc
      rcases hc with hc | hc
      · left; rw [hc]; simp
      · right
        obtain ⟨ys, hys⟩ := List.getLast?_eq_some_iff.mp hc
        exact ⟨ys, by rw [hys]; simp⟩
    · right; exact ⟨v.outputPath, by simp⟩

/-- C60: in a folder the output never has the name of the input -/
theorem C60_not_the_input (isdir : Str → Bool) (v : VideoCfg) (h : isdir v.outputPath = true) (p : Str)
    (hp : v.inputPath = some p) (hext : '/' ∉ v.outputExtension) (a b : Str) (ha : IsName p a)
    (hb : IsName (v.outputFilePath isdir) b) : a ≠ b ∧ v.outputFilePath isdir ≠ p := by
  obtain ⟨stem, rest, h1, h2, h3, -, h5⟩ := C60_folder isdir v h p a hp ha hext
  have hab : a ≠ b := by
    rw [IsName.unique hb h5, h1, List.append_assoc]
    intro he
    have := List.append_cancel_left he
    rcases h3 with h3 | h3
    · rw [h3] at this; cases this
    · rw [this] at h3
      simp at h3
  refine ⟨hab, fun he => ?_⟩
  rw [he] at hb
  exact hab (IsName.unique ha hb)

/-- C60: all cameras get the same file: the number of the camera is not in its name -/
theorem C60_cameras (isdir : Str → Bool) (v w : VideoCfg) (hv : v.inputPath = none) (hw : w.inputPath = none)
    (ho : v.outputPath = w.outputPath) (he : v.outputExtension = w.outputExtension) :
    v.outputFilePath isdir = w.outputFilePath isdir := by
  simp [VideoCfg.outputFilePath, hv, hw, ho, he]

/-- C60: two inputs that differ after the first dot of their names get the same file -/
theorem C60_same_output :
    (VideoCfg.mk none (some "/v/cam.front.mp4".toList) "out".toList none "mp4".toList).outputFilePath (fun _ => true) =
    (VideoCfg.mk none (some "/v/cam.back.mp4".toList) "out".toList none "mp4".toList).outputFilePath (fun _ => true) := by
  decide +kernel

/-- C60: the codec is the one given; otherwise `mp4v` exactly for names that end with `mp4` in upper or lower case,
`XVID` exactly for `avi`, and an error for all others. -/
theorem C60_codec (v : VideoCfg) (filename : Str) :
    (∀ c, v.outputFourcc = some c → v.codecFourcc filename = some c) ∧
    (v.outputFourcc = none → (v.codecFourcc filename = some "mp4v".toList ↔
        ∃ pre ext, filename = pre ++ ext ∧ asciiLower ext = "mp4".toList) ∧
      (v.codecFourcc filename = some "XVID".toList ↔
        ∃ pre ext, filename = pre ++ ext ∧ asciiLower ext = "avi".toList) ∧
      (v.codecFourcc filename = none ↔ ∀ pre ext, filename = pre ++ ext →
        asciiLower ext ≠ "mp4".toList ∧ asciiLower ext ≠ "avi".toList)) := by
  refine ⟨fun c hc => by simp [VideoCfg.codecFourcc, hc], fun hn => ?_⟩
  have hex : ∀ (w : Str), w.length = 3 → (asciiLower (filename.drop (filename.length - 3)) = w ↔
      ∃ pre ext, filename = pre ++ ext ∧ asciiLower ext = w) := by
    intro w hw
    constructor
    · intro h
      exact ⟨filename.take (filename.length - 3), _, (List.take_append_drop _ _).symm, h⟩
    · rintro ⟨pre, ext, rfl, h⟩
      have hl : ext.length = 3 := by
        rw [← hw, ← h, asciiLower, List.length_map]
      have : (pre ++ ext).drop ((pre ++ ext).length - 3) = ext := by
        rw [List.length_append, hl, Nat.add_sub_cancel, List.drop_left]
      rw [this, h]
  have h1 := hex "mp4".toList rfl
  have h2 := hex "avi".toList rfl
  have hne : ∀ s : Str, s = "mp4".toList → s ≠ "avi".toList := by rintro s rfl; decide
  unfold VideoCfg.codecFourcc
  rw [hn]
  simp only
  have h3 : (∀ pre ext, filename = pre ++ ext → asciiLower ext ≠ "mp4".toList ∧ asciiLower ext ≠ "avi".toList) ↔
      ¬ (asciiLower (filename.drop (filename.length - 3)) = "mp4".toList) ∧
      ¬ (asciiLower (filename.drop (filename.length - 3)) = "avi".toList) := by
    rw [h1, h2]
    constructor
    · intro h
      exact ⟨fun ⟨pre, ext, he, hx⟩ => (h pre ext he).1 hx, fun ⟨pre, ext, he, hx⟩ => (h pre ext he).2 hx⟩
    · intro h pre ext he
      exact ⟨fun hx => h.1 ⟨pre, ext, he, hx⟩, fun hx => h.2 ⟨pre, ext, he, hx⟩⟩
  rw [h3, ← h1, ← h2]
  by_cases ha : asciiLower (filename.drop (filename.length - 3)) = "avi".toList
  · rw [ha]; decide
  · by_cases hm : asciiLower (filename.drop (filename.length - 3)) = "mp4".toList
    · rw [hm]; decide
    · rw [if_neg (fun h => ha h.symm), if_neg (fun h => hm h.symm)]
      exact ⟨⟨(fun h => nomatch h), fun h => absurd h hm⟩, ⟨(fun h => nomatch h), fun h => absurd h ha⟩,
        ⟨fun _ => ⟨hm, ha⟩, fun _ => rfl⟩⟩

/-- C60: examples -/
example : (VideoCfg.mk none (some "/v/x.y.avi".toList) "out/".toList none "mp4".toList).outputFilePath (fun _ => true) =
      "out/x_out.mp4".toList ∧ IsName "/v/x.y.avi".toList "x.y.avi".toList := by
  refine ⟨by decide +kernel, by decide, Or.inr ⟨"/v".toList, rfl⟩⟩

/-- C60_cameras: two cameras -/
example : (VideoCfg.mk (some 0) none ".".toList none "mp4".toList).outputFilePath (fun _ => true) =
    "./camera_{self.camera}_out.mp4".toList := by decide +kernel

example : (VideoCfg.mk none none [] none []).codecFourcc "a.MP4".toList = some "mp4v".toList ∧
    (VideoCfg.mk none none [] none []).codecFourcc "a.mkv".toList = none := by decide +kernel

/-! ### C61: descriptions -/

/-- C61: a description that is shorter than the space is kept -/
theorem C61_short (columns : ℤ) (d : Str) (h : (d.length : ℤ) < columns - 25) : abbreviate columns d = d := by
  simp [abbreviate, h]

/-- C61: with at least 32 columns, the result always has fewer characters than the space left by the progress bar;
a description that is cut fills all of it but one character, and keeps its beginning and its end -/
theorem C61_fits_partial (columns : ℤ) (d : Str) (hc : 32 ≤ columns) :
    ((abbreviate columns d).length : ℤ) < columns - 25 ∧
    (columns - 25 ≤ d.length → ((abbreviate columns d).length : ℤ) = columns - 26 ∧
      ∃ a b mid, abbreviate columns d = a ++ " ... ".toList ++ b ∧ d = a ++ mid ++ b) := by
  by_cases h : (d.length : ℤ) < columns - 25
  · rw [C61_short columns d h]
    exact ⟨h, fun hh => by omega⟩
  · unfold abbreviate
    simp only [if_neg h]
    have h1 : sliceLimit d.length ((columns - 25) / 2 - 3) = ((columns - 25) / 2 - 3).toNat := by
      rw [sliceLimit, if_neg (by omega)]
      omega
    have h2 : sliceLimit d.length (-(columns - 25) / 2 + 3) = (-(columns - 25) / 2 + 3 + d.length).toNat ∨
        (-(columns - 25) / 2 + 3 = 0 ∧ sliceLimit d.length (-(columns - 25) / 2 + 3) = 0) := by
      rw [sliceLimit]
      by_cases hneg : -(columns - 25) / 2 + 3 < 0
      · left; rw [if_pos hneg]
      · right
        have : -(columns - 25) / 2 + 3 = 0 := by omega
        rw [this]
        simp
    rcases h2 with h2 | ⟨h0, -⟩
    · rw [h1, h2]
      have hlen : ((d.take ((columns - 25) / 2 - 3).toNat ++ " ... ".toList ++
          d.drop (-(columns - 25) / 2 + 3 + d.length).toNat).length : ℤ) = columns - 26 := by
        have h5 : (" ... ".toList).length = 5 := rfl
        rw [List.length_append, List.length_append, h5, List.length_take, List.length_drop]
        omega
      refine ⟨by omega, fun _ => ⟨hlen, d.take ((columns - 25) / 2 - 3).toNat,
        d.drop (-(columns - 25) / 2 + 3 + d.length).toNat,
        (d.drop ((columns - 25) / 2 - 3).toNat).take
          ((-(columns - 25) / 2 + 3 + d.length).toNat - ((columns - 25) / 2 - 3).toNat), rfl, ?_⟩⟩
      have hd : d.drop (-(columns - 25) / 2 + 3 + d.length).toNat =
          (d.drop ((columns - 25) / 2 - 3).toNat).drop
            ((-(columns - 25) / 2 + 3 + d.length).toNat - ((columns - 25) / 2 - 3).toNat) := by
        rw [List.drop_drop]
        congr 1
        omega
      rw [hd, List.append_assoc, List.take_append_drop, List.take_append_drop]
    · omega

/-- C61: with fewer columns the abbreviated description is longer than the space; it can even be longer than the
description -/
theorem C61_narrow_terminal : (abbreviate 31 "video.mp4".toList).length = 14 := by decide +kernel

/-- C61: the terminal has the size that the first of the three streams tells, or the default -/
theorem C61_terminal (size : Nat → Option (ℤ × ℤ)) (default : ℤ × ℤ) :
    (∀ k < 3, ∀ s, size k = some s → (∀ j < k, size j = none) → getTerminalSize size default = s) ∧
    ((∀ k < 3, size k = none) → getTerminalSize size default = default) := by
  constructor
  · intro k hk s hs hj
    unfold getTerminalSize
    match k, hk with
    | 0, _ => simp [hs]
    | 1, _ => simp [hj 0 (by omega), hs]
    | 2, _ => simp [hj 0 (by omega), hj 1 (by omega), hs]
  · intro h
    simp [getTerminalSize, h 0 (by omega), h 1 (by omega), h 2 (by omega)]

example : abbreviate 40 "a rather long name.mp4".toList = "a ra ... .mp4".toList ∨
    (abbreviate 40 "a rather long name.mp4".toList).length = 14 := by decide +kernel

/-! ### C62: sequences of frames -/

/-- call `next` several times -/
def seqNexts : Nat → FrameSeq Fr → List (Step Str)
  | 0, _ => []
  | m + 1, s => s.next.2 :: seqNexts m s.next.1

/-- the path of a frame -/
def framePath (input dir ext : Str) (k : Nat) : Str :=
  pathJoin (pathJoin input dir) (zfill6 (natStr k) ++ ext)

/-- C62: iterating reads the frames 1, 2, ..., `seqLength` in order, and then stops for ever; iterating again starts
over -/
theorem C62_frames (s : FrameSeq Fr) (n : Nat) (dir ext : Str) (hl : s.length = .int n)
    (hd : s.imageDirectory = .str dir) (he : s.imageExtension = .str ext) (m : Nat) :
    seqNexts m s.iter = ((List.range' 1 n).take m).map (fun k => .item (framePath s.inputPath dir ext k)) ++
      List.replicate (m - n) .stop := by
  have key : ∀ (m : Nat) (s' : FrameSeq Fr), s'.length = .int n → s'.imageDirectory = .str dir →
      s'.imageExtension = .str ext → s'.inputPath = s.inputPath → 1 ≤ s'.frameNumber →
      seqNexts m s' = ((List.range' s'.frameNumber (n + 1 - s'.frameNumber)).take m).map
        (fun k => .item (framePath s.inputPath dir ext k)) ++
          List.replicate (m - (n + 1 - s'.frameNumber)) .stop := by
    intro m
    induction m with
    | zero => intro s' _ _ _ _ _; simp [seqNexts]
    | succ m ih =>
      intro s' h1 h2 h3 h4 h5
      rw [seqNexts]
      by_cases hf : s'.frameNumber ≤ n
      · have hn : s'.next = ({ s' with frameNumber := s'.frameNumber + 1 },
            .item (framePath s.inputPath dir ext s'.frameNumber)) := by
          unfold FrameSeq.next
          simp only [h1, h2, h3, if_pos hf, framePath, h4]
        have e := ih { s' with frameNumber := s'.frameNumber + 1 } h1 h2 h3 h4 (Nat.succ_pos _)
        rw [hn]
        simp only at e ⊢
        rw [e]
        have hk : n + 1 - s'.frameNumber = (n + 1 - (s'.frameNumber + 1)) + 1 := by omega
        generalize n + 1 - (s'.frameNumber + 1) = k at hk
        rw [hk, List.range'_succ, List.take_succ_cons, List.map_cons, List.cons_append, Nat.add_sub_add_right]
      · have hn : s'.next = (s', .stop) := by
          unfold FrameSeq.next
          simp only [h1, if_neg hf]
        rw [hn]
        simp only
        rw [ih s' h1 h2 h3 h4 h5, show n + 1 - s'.frameNumber = 0 by omega]
        simp [List.replicate_succ]
  have := key m s.iter hl hd he rfl (le_refl 1)
  simpa [FrameSeq.iter] using this

theorem digitChar_inj : ∀ a < 10, ∀ b < 10, digitChar a = digitChar b → a = b := by decide

/-- the value of a string of digits -/
def digitsValue (s : Str) : Nat := s.foldl (fun n c => 10 * n + (c.toNat - '0'.toNat)) 0

theorem digitsValue_natStr (n : Nat) : digitsValue (natStr n) = n := by
  obtain ⟨ds, h1, -, h3, h4⟩ := natStr_eq n
  rw [h1, ← h4, ← foldl_digits, digitsValue, List.foldl_map]
  have hd : ∀ d < 10, (digitChar d).toNat - '0'.toNat = d := by decide
  have : ∀ (l : List Nat) (a : Nat), (∀ d ∈ l, d < 10) →
      l.foldl (fun n d => 10 * n + ((digitChar d).toNat - '0'.toNat)) a = l.foldl (fun n d => 10 * n + d) a := by
    intro l
    induction l with
    | nil => intro a _; rfl
    | cons d l ih =>
      intro a h
      rw [List.foldl_cons, List.foldl_cons, hd d (h d (List.mem_cons_self ..)),
        ih _ fun d hm => h d (List.mem_cons_of_mem _ hm)]
  exact this _ _ (by simpa using h3)

theorem digitsValue_zfill (s : Str) : digitsValue (zfill6 s) = digitsValue s := by
  unfold zfill6 digitsValue
  rw [List.foldl_append]
  congr 1
  generalize 6 - s.length = k
  induction k with
  | zero => rfl
  | succ k ih => rw [List.replicate_succ, List.foldl_cons]; exact ih

/-- C62: different frames are read from different files -/
theorem C62_distinct (input dir ext : Str) (j k : Nat) (h : framePath input dir ext j = framePath input dir ext k) :
    j = k := by
  have hz : ∀ n, (zfill6 (natStr n) ++ ext).head? ≠ some '/' := by
    intro n hh
    have hne : zfill6 (natStr n) ≠ [] := by
      obtain ⟨ds, h1, h2, -, -⟩ := natStr_eq n
      intro hz
      have := congrArg List.length hz
      rw [h1] at this
      simp [zfill6, h2] at this
    obtain ⟨c, l, hcl⟩ := List.exists_cons_of_ne_nil hne
    have hc : c = '/' := by rw [hcl] at hh; simpa using hh
    have hmem : c ∈ zfill6 (natStr n) := by rw [hcl]; exact List.mem_cons_self ..
    rw [hc] at hmem
    rcases List.mem_append.mp hmem with hm | hm
    · exact absurd (List.eq_of_mem_replicate hm) (by decide)
    · obtain ⟨ds, h1, -, h3, -⟩ := natStr_eq n
      rw [h1] at hm
      obtain ⟨d, hd, he⟩ := List.mem_map.mp hm
      have : ∀ d < 10, digitChar d ≠ '/' := by decide
      exact this d (h3 d (List.mem_reverse.mp hd)) he
  have hj : ∀ a n, ∃ pre, pathJoin a (zfill6 (natStr n) ++ ext) = pre ++ (zfill6 (natStr n) ++ ext) ∧
      pre = (if a = [] ∨ a.getLast? = some '/' then a else a ++ ['/']) := by
    intro a n
    refine ⟨_, ?_, rfl⟩
    rw [pathJoin, if_neg (hz n)]
    split <;> simp
  unfold framePath at h
  obtain ⟨p, h1, rfl⟩ := hj (pathJoin input dir) j
  obtain ⟨q, h2, rfl⟩ := hj (pathJoin input dir) k
  rw [h1, h2] at h
  have := List.append_cancel_right (List.append_cancel_left h)
  have h3 := congrArg digitsValue this
  rwa [digitsValue_zfill, digitsValue_zfill, digitsValue_natStr, digitsValue_natStr] at h3

/-- the usual loop: `for frame in seq: ... seq.update(frame)`; `load` reads the file -/
def seqLoop (load : Str → Fr) : Nat → FrameSeq Fr → Option (FrameSeq Fr)
  | 0, s => some s
  | m + 1, s =>
    match s.next with
    | (s, .item p) =>
      match s.update (load p) with
      | (_, true) => none
      | (s, false) => seqLoop load m s
    | (s, .stop) => some s
    | (_, .raise) => none

/-- C62: in the usual loop each frame is written once, in order, and the video is released exactly once, with the last
frame: after fewer frames it is not released -/
theorem C62_released_once (load : Str → Fr) (s : FrameSeq Fr) (n : Nat) (dir ext : Str) (hl : s.length = .int n)
    (hd : s.imageDirectory = .str dir) (he : s.imageExtension = .str ext) (hv : s.hasVideo = true)
    (hw : s.written = []) (hr : s.released = 0) (m : Nat) :
    ∃ s', seqLoop load m s.iter = some s' ∧
      s'.written = ((List.range' 1 n).take m).map (fun k => load (framePath s.inputPath dir ext k)) ∧
      s'.released = if 1 ≤ n ∧ n ≤ m then 1 else 0 := by
  have key : ∀ (m : Nat) (s' : FrameSeq Fr), s'.length = .int n → s'.imageDirectory = .str dir →
      s'.imageExtension = .str ext → s'.inputPath = s.inputPath → s'.hasVideo = true → 1 ≤ s'.frameNumber →
      ∃ s'', seqLoop load m s' = some s'' ∧
        s''.written = s'.written ++ ((List.range' s'.frameNumber (n + 1 - s'.frameNumber)).take m).map
          (fun k => load (framePath s.inputPath dir ext k)) ∧
        s''.released = s'.released + if s'.frameNumber ≤ n ∧ n + 1 ≤ s'.frameNumber + m then 1 else 0 := by
    intro m
    induction m with
    | zero =>
      intro s' _ _ _ _ _ _
      refine ⟨s', rfl, by simp, ?_⟩
      rw [if_neg (by omega)]
      rfl
    | succ m ih =>
      intro s' h1 h2 h3 h4 h5 h6
      rw [seqLoop]
      by_cases hf : s'.frameNumber ≤ n
      · have hn : s'.next = ({ s' with frameNumber := s'.frameNumber + 1 },
            .item (framePath s.inputPath dir ext s'.frameNumber)) := by
          unfold FrameSeq.next
          simp only [h1, h2, h3, if_pos hf, framePath, h4]
        rw [hn]
        simp only
        have hu : FrameSeq.update { s' with frameNumber := s'.frameNumber + 1 }
            (load (framePath s.inputPath dir ext s'.frameNumber)) =
            ({ s' with
                frameNumber := s'.frameNumber + 1
                written := s'.written ++ [load (framePath s.inputPath dir ext s'.frameNumber)]
                released := s'.released + if s'.frameNumber + 1 > n then 1 else 0 }, false) := by
          unfold FrameSeq.update
          simp only [h5, h1, Bool.not_true, Bool.false_eq_true, if_false]
          split <;> simp
        rw [hu]
        simp only
        obtain ⟨s'', e1, e2, e3⟩ := ih { s' with
                frameNumber := s'.frameNumber + 1
                written := s'.written ++ [load (framePath s.inputPath dir ext s'.frameNumber)]
                released := s'.released + if s'.frameNumber + 1 > n then 1 else 0 } h1 h2 h3 h4 h5 (Nat.succ_pos _)
        refine ⟨s'', e1, ?_, ?_⟩
        · rw [e2, show n + 1 - s'.frameNumber = (n + 1 - (s'.frameNumber + 1)) + 1 by omega, List.range'_succ,
            List.take_succ_cons, List.map_cons]
          simp
        · rw [e3]
          simp only
          by_cases h7 : s'.frameNumber + 1 > n
          · rw [if_pos h7, if_neg (by omega), if_pos (by omega)]
          · rw [if_neg h7]
            by_cases h8 : s'.frameNumber + 1 + m ≥ n + 1
            · rw [if_pos (by omega), if_pos (by omega)]
            · rw [if_neg (by omega), if_neg (by omega)]
      · have hn : s'.next = (s', .stop) := by
          unfold FrameSeq.next
          simp only [h1, if_neg hf]
        rw [hn]
        refine ⟨s', rfl, ?_, ?_⟩
        · rw [show n + 1 - s'.frameNumber = 0 by omega]; simp
        · rw [if_neg (by omega)]; rfl
  obtain ⟨s', e1, e2, e3⟩ := key m s.iter hl hd he rfl hv (le_refl 1)
  refine ⟨s', e1, ?_, ?_⟩
  · simpa [FrameSeq.iter, hw] using e2
  · rw [e3]
    simp only [FrameSeq.iter, hr, Nat.zero_add]
    congr 1
    simp only [eq_iff_iff]
    omega

/-- C62: with `make_video=False` there is no video, and `update` raises -/
theorem C62_no_video (s : FrameSeq Fr) (h : s.hasVideo = false) (f : Fr) : s.update f = (s, true) := by
  simp [FrameSeq.update, h]

/-- a sequence of three frames -/
def toySeq : FrameSeq Str := ⟨.int 3, "/data/A".toList, .str "img1".toList, .str ".jpg".toList, true, 1, [], 0⟩

/-- C62: hypotheses and the files -/
example : seqNexts 4 toySeq.iter = [.item "/data/A/img1/000001.jpg".toList, .item "/data/A/img1/000002.jpg".toList,
      .item "/data/A/img1/000003.jpg".toList, .stop] ∧ toySeq.length = .int 3 ∧
    ((seqLoop id 10 toySeq.iter).map fun s => (s.written.length, s.released)) = some (3, 1) := by
  decide +kernel

/-! ### C73, C74 -/

/-- several calls of `warn_once`: the warnings that are given -/
def warnings : List Str → List Str → List Str
  | _, [] => []
  | cache, m :: ms =>
    let r := warnOnce cache m
    (if r.2 then [m] else []) ++ warnings r.1 ms

/-- C73: every message is given exactly once, at its first call -/
theorem C73_once (ms : List Str) : (warnings [] ms).Nodup ∧ (∀ m, m ∈ warnings [] ms ↔ m ∈ ms) ∧
    (warnings [] ms).Sublist ms := by
  have key : ∀ (ms cache : List Str), (warnings cache ms).Nodup ∧
      (∀ m, m ∈ warnings cache ms ↔ m ∈ ms ∧ m ∉ cache) ∧ (warnings cache ms).Sublist ms := by
    intro ms
    induction ms with
    | nil => intro cache; simp [warnings]
    | cons m ms ih =>
      intro cache
      by_cases hm : m ∈ cache
      · have : warnings cache (m :: ms) = warnings cache ms := by
          rw [warnings]; simp [warnOnce, hm]
        rw [this]
        obtain ⟨h1, h2, h3⟩ := ih cache
        refine ⟨h1, ?_, h3.trans (List.sublist_cons_self ..)⟩
        intro q
        rw [h2 q, List.mem_cons]
        constructor
        · rintro ⟨ha, hb⟩; exact ⟨Or.inr ha, hb⟩
        · rintro ⟨ha | ha, hb⟩
          · exact absurd (ha ▸ hm) hb
          · exact ⟨ha, hb⟩
      · have : warnings cache (m :: ms) = m :: warnings (m :: cache) ms := by
          rw [warnings]; simp [warnOnce, hm]
        rw [this]
        obtain ⟨h1, h2, h3⟩ := ih (m :: cache)
        refine ⟨List.nodup_cons.mpr ⟨?_, h1⟩, ?_, h3.cons₂ m⟩
        · intro hh
          exact ((h2 m).mp hh).2 (List.mem_cons_self ..)
        · intro q
          rw [List.mem_cons, h2 q, List.mem_cons, List.mem_cons, not_or]
          by_cases hq : q = m
          · subst hq; simp [hm]
          · simp [hq]
  simpa using key ms []

example : warnings [] ["a".toList, "b".toList, "a".toList] = ["a".toList, "b".toList] := by decide +kernel

/-- C74: `show` keeps the frame for the ratio 1 and otherwise, for a positive integer, divides both sides by the ratio,
rounding down -/
theorem C74_scale_partial [One K] [DecidableEq K] (n : ℤ) (hn : 0 < n) (h w : Nat) :
    (n = 1 → showSize (K := K) (.int n) (h, w) = some none) ∧
    (n ≠ 1 → ∃ a b : Nat, showSize (K := K) (.int n) (h, w) = some (some ((a : ℤ), (b : ℤ))) ∧
      (a * n ≤ w ∧ w < (a + 1) * n) ∧ (b * n ≤ h ∧ h < (b + 1) * n)) := by
  refine ⟨fun h1 => by simp [showSize, h1], fun h1 => ?_⟩
  have hfd : ∀ k : Nat, Int.fdiv k n = (k : ℤ) / n := fun k => Int.fdiv_eq_ediv_of_nonneg _ hn.le
  have hnn : ∀ k : Nat, ((((k : ℤ) / n).toNat : Nat) : ℤ) = (k : ℤ) / n := fun k =>
    Int.toNat_of_nonneg (Int.ediv_nonneg (by omega) hn.le)
  refine ⟨((w : ℤ) / n).toNat, ((h : ℤ) / n).toNat, ?_, ?_, ?_⟩
  · simp only [showSize, if_neg h1, if_neg hn.ne', hfd, hnn]
  · rw [hnn]
    exact ⟨Int.ediv_mul_le _ hn.ne', Int.lt_ediv_add_one_mul_self _ hn⟩
  · rw [hnn]
    exact ⟨Int.ediv_mul_le _ hn.ne', Int.lt_ediv_add_one_mul_self _ hn⟩

/-- C74: for a float, the documented type of the ratio, other than 1 the size consists of floats, which OpenCV does not
accept -/
theorem C74_float [One K] [DecidableEq K] (x : K) (hx : x ≠ 1) (shape : Nat × Nat) :
    showSize (.float x) shape = none := by
  simp [showSize, hx]

example : showSize (K := ℚ) (.int 2) (481, 640) = some (some (320, 240)) ∧
    showSize (K := ℚ) (.float 2) (481, 640) = none := by
  decide +kernel

end Norfair.Props
