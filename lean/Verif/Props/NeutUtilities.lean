/- Properties C01-C11: neut_utilities.py. -/
import Verif.Proofs.NeutUtilities
import Mathlib.Tactic.NormNum

namespace Props
open Py NeutUtilities

/-- A small file system used in the examples: only `f` exists, everything is writable. -/
def exFS (content : Str) : FS :=
  { node := fun p => if p = p!"f" then some (.file content) else none, perm := fun _ => true }

/-! ### C01 -/

/-- C01: reading back what was written returns the same list iff no line contains a line boundary. -/
theorem C01_round_trip_iff (fs : FS) (path : Str) (lines : List Str) (hw : fs.canWrite path = true) :
    (writeLines path lines fs).1 = .ok () ∧
    ((getLines path (writeLines path lines fs).2).1 = .ok lines ↔ ∀ l ∈ lines, Spec.NoBoundary l) := by
  rw [writeLines_ok lines hw]
  refine ⟨rfl, ?_⟩
  rw [getLines_file put_self]
  simp only [Except.ok.injEq]
  constructor
  · intro h l hl c hc
    rw [← isLineBreak_false_iff]
    exact mem_splitlines (by rw [h]; exact hl) c hc
  · intro h
    exact univNL_splitlines_flatMap (fun l hl c hc => isLineBreak_false_iff.2 (h l hl c hc))

/-- C01: only the target path changes; and nothing changes if the path cannot be written. -/
theorem C01_frame (fs : FS) (path : Str) (lines : List Str) :
    (∀ q, q ≠ path → (writeLines path lines fs).2.node q = fs.node q) ∧
    ((writeLines path lines fs).1 ≠ .ok () → (writeLines path lines fs).2 = fs) := by
  cases h : fs.canWrite path with
  | true => rw [writeLines_ok lines h]; exact ⟨fun q hq => put_other hq, fun h => absurd rfl h⟩
  | false => rw [writeLines_err lines h]; exact ⟨fun _ _ => rfl, fun _ => rfl⟩

example : (exFS p!"x").canWrite p!"f" = true := by decide
example : ∀ l ∈ [p!"a b", p!"", p!"c"], Spec.NoBoundary l := by unfold Spec.NoBoundary; decide
example : (writeLines p!"nodir/f" [p!"a"] (exFS p!"x")).1 ≠ .ok () := by decide

/-! ### C02 -/

/-- C02: the lines read contain no line boundary, and together they are the content without boundaries. -/
theorem C02_lines_clean (fs : FS) (path content : Str) (h : fs.node path = some (.file content)) :
    ∃ lines, (getLines path fs).1 = .ok lines ∧ (∀ l ∈ lines, Spec.NoBoundary l) ∧
      lines.flatten = content.filter (fun c => decide (c ∉ Spec.boundaries)) := by
  refine ⟨_, by rw [getLines_file h], ?_, ?_⟩
  · intro l hl c hc
    exact isLineBreak_false_iff.1 (mem_splitlines hl c hc)
  · rw [splitlines_flatten, univNL_filter]
    congr 1
    funext c
    by_cases hc : c ∈ Spec.boundaries
    · simp [hc, isLineBreak_iff.2 hc]
    · simp [hc, isLineBreak_false_iff.2 hc]

/-- C02: rewriting what was read and reading again gives the same list. -/
theorem C02_stable (fs : FS) (path content : Str) (h : fs.node path = some (.file content))
    (hw : fs.canWrite path = true) :
    ∃ lines, (getLines path fs).1 = .ok lines ∧
      (getLines path (writeLines path lines (getLines path fs).2).2).1 = .ok lines := by
  refine ⟨_, by rw [getLines_file h], ?_⟩
  rw [getLines_snd, writeLines_ok _ hw, getLines_file put_self]
  simp only [Except.ok.injEq]
  exact univNL_splitlines_flatMap (fun l hl => mem_splitlines hl)

/-- C02: with `\n` as the only boundary, the lines are the pieces between the newlines
    (with or without a final newline). -/
theorem C02_newline_only (fs : FS) (path : Str) (lines : List Str) (last : Str)
    (hl : ∀ l ∈ lines, Spec.NoBoundary l) (hlast : Spec.NoBoundary last)
    (h : fs.node path = some (.file (lines.flatMap (fun l => l ++ ['\n']) ++ last))) :
    (getLines path fs).1 = .ok (if last = [] then lines else lines ++ [last]) := by
  rw [getLines_file h]
  simp only [Except.ok.injEq]
  rw [univNL_eq_self]
  · clear h
    induction lines with
    | nil =>
      simp only [List.flatMap_nil, List.nil_append]
      induction last with
      | nil => rfl
      | cons c cs ih =>
        rw [splitlines_cons_neg (isLineBreak_false_iff.2 (hlast c (by simp))),
          ih (fun d hd => hlast d (by simp [hd]))]
        cases cs <;> simp
    | cons l ls ih =>
      rw [List.flatMap_cons, List.append_assoc, List.append_assoc, List.singleton_append,
        splitlines_line_append (fun c hc => isLineBreak_false_iff.2 (hl l (by simp) c hc)),
        ih (fun l hl' => hl l (by simp [hl']))]
      split <;> simp
  · intro hm
    rcases List.mem_append.1 hm with hm | hm
    · obtain ⟨l, hl', hm⟩ := List.mem_flatMap.1 hm
      rcases List.mem_append.1 hm with hm | hm
      · exact hl l hl' _ hm (by decide)
      · simp at hm
    · exact hlast _ hm (by decide)

example : (exFS p!"a\r\nb\x0cc").node p!"f" = some (.file p!"a\r\nb\x0cc") := by decide
example : (getLines p!"f" (exFS p!"a\r\n\nb\x0cc")).1 = .ok [p!"a", p!"", p!"b", p!"c"] := by decide
example : (∀ l ∈ [p!"a", p!""], Spec.NoBoundary l) ∧ Spec.NoBoundary p!"c" := by
  unfold Spec.NoBoundary; decide

/-! ### C03 -/

/-- C03: `find_line` returns the least index whose line has `text` as its first `num` characters. -/
theorem C03_find_line_ok (text : Str) (lines : List Str) (num i : Nat) :
    findLine text lines num = .ok i ↔
      Spec.IsLeast (fun j => ∃ l, lines[j]? = some l ∧ l.take num = text) i := by
  rw [findLine_eq, orErr_ok_iff, findIdx?_isLeast]; simp

/-- C03: it raises exactly when no line qualifies, and the exception is ValueError. -/
theorem C03_find_line_error (text : Str) (lines : List Str) (num : Nat) (e : Err) :
    findLine text lines num = .error e ↔ e = .ValueError ∧ ∀ l ∈ lines, l.take num ≠ text := by
  rw [findLine_eq, orErr_err_iff, List.findIdx?_eq_none_iff]
  simp [and_comm]

/-- C03: the three cases of the relation between the text and `num`. -/
theorem C03_find_line_cases (text : Str) (lines : List Str) (num : Nat) :
    (text.length = num → ∀ i, findLine text lines num = .ok i ↔
      Spec.IsLeast (fun j => ∃ l, lines[j]? = some l ∧ text <+: l) i) ∧
    (num < text.length → findLine text lines num = .error .ValueError) ∧
    (text.length < num → ∀ i, findLine text lines num = .ok i ↔
      Spec.IsLeast (fun j => lines[j]? = some text) i) := by
  refine ⟨?_, ?_, ?_⟩
  · intro h i
    rw [C03_find_line_ok]
    have : ∀ l : Str, l.take num = text ↔ text <+: l := by
      intro l
      rw [List.prefix_iff_eq_take, h, eq_comm]
    simp only [this]
  · intro h
    rw [C03_find_line_error]
    refine ⟨rfl, fun l _ hl => ?_⟩
    have := congrArg List.length hl
    simp at this
    omega
  · intro h i
    rw [C03_find_line_ok]
    have : ∀ l : Str, l.take num = text ↔ l = text := by
      intro l
      constructor
      · intro hl
        have h2 := congrArg List.length hl
        simp only [List.length_take] at h2
        rw [← hl, List.take_of_length_le (by omega)]
      · rintro rfl
        exact List.take_of_length_le (by omega)
    simp only [this, exists_eq_right]

example : findLine p!"ab" [p!"xab", p!"abc", p!"ab"] 2 = .ok 1 := by decide
example : findLine p!"ab" [p!"xab", p!"abc", p!"ab"] 3 = .ok 2 := by decide
example : findLine p!"ab" [p!"xab", p!"abc", p!"ab"] 1 = .error .ValueError := by decide

/-! ### C04 -/

/-- C04: every text has exactly one list of words, and `string_clean_and_split` returns it
    (`['']` for a text without words). -/
theorem C04_clean_and_split (text : Str) :
    ∃ ws, Spec.IsWords text ws ∧ (∀ ws', Spec.IsWords text ws' → ws' = ws) ∧
      stringCleanAndSplit text = (if ws = [] then [[]] else ws) := by
  refine ⟨splitWs text, isWords_splitWs text, fun ws' h => (splitWs_of_isWords h).symm, ?_⟩
  rw [stringCleanAndSplit, stringCleaner_eq]
  by_cases h : splitWs text = []
  · rw [if_pos h, h]; rfl
  · rw [if_neg h, splitOn_join h]
    intro w hw hc
    exact absurd ((mem_splitWs hw).2 _ hc) (by decide)

/-- C04: `string_cleaner` keeps the words and the non-white-space characters, and is idempotent. -/
theorem C04_cleaner (text : Str) :
    stringCleaner (stringCleaner text) = stringCleaner text ∧
    (∀ ws, Spec.IsWords (stringCleaner text) ws ↔ Spec.IsWords text ws) ∧
    (stringCleaner text).filter (fun c => !isSpace c) = text.filter (fun c => !isSpace c) := by
  refine ⟨?_, ?_, ?_⟩
  · rw [stringCleaner_eq (stringCleaner text), splitWs_stringCleaner, ← stringCleaner_eq]
  · intro ws
    rw [isWords_iff, isWords_iff, splitWs_stringCleaner]
  · have key : ∀ s : Str, ∀ ws, Spec.IsWords s ws → s.filter (fun c => !isSpace c) = ws.flatten := by
      intro s ws h
      induction h with
      | blank h => rw [List.filter_eq_nil_iff.2 (by intro a ha; simp [h a ha])]; rfl
      | word hp hw _ _ ih =>
        rw [List.filter_append, List.filter_append, ih,
          List.filter_eq_nil_iff.2 (by intro a ha; simp [hp a ha]),
          List.filter_eq_self.2 (by intro a ha; simp [hw.2 a ha])]
        rfl
    rw [key _ _ (isWords_splitWs text), key _ _ (isWords_splitWs (stringCleaner text)),
      splitWs_stringCleaner]

/-- C04: the cleaned text has no leading, trailing or doubled blank, and its only white space is `' '`. -/
theorem C04_cleaner_shape (text : Str) :
    (∀ c ∈ (stringCleaner text).head?, isSpace c = false) ∧
    (∀ c ∈ (stringCleaner text).getLast?, isSpace c = false) ∧
    ¬ [' ', ' '] <:+: stringCleaner text ∧
    (∀ c ∈ stringCleaner text, isSpace c = true → c = ' ') := by
  rw [stringCleaner_eq]
  have hw : ∀ w ∈ splitWs text, w ≠ [] ∧ ∀ c ∈ w, isSpace c = false := fun w h => mem_splitWs h
  generalize splitWs text = ws at hw
  induction ws with
  | nil => simp [join]
  | cons w ws ih =>
    obtain ⟨hne, hsp⟩ := hw w (by simp)
    obtain ⟨i1, i2, i3, i4⟩ := ih (fun w h => hw w (by simp [h]))
    cases ws with
    | nil =>
      refine ⟨?_, ?_, ?_, ?_⟩
      · intro c hc; exact hsp c (List.mem_of_mem_head? hc)
      · intro c hc; exact hsp c (List.mem_of_mem_getLast? hc)
      · intro h; exact absurd (hsp ' ' (h.subset (by simp))) (by decide)
      · intro c hc h; rw [hsp c hc] at h; exact absurd h (by simp)
    | cons w2 ws2 =>
      simp only [join, List.singleton_append]
      set r := join [' '] (w2 :: ws2) with hr
      obtain ⟨hne2, hsp2⟩ := hw w2 (by simp)
      have hrne : r ≠ [] := by
        rw [hr]
        cases ws2 <;> simp [join, hne2]
      obtain ⟨x, xs, hx⟩ := List.exists_cons_of_ne_nil hrne
      have hxs : isSpace x = false := i1 x (by simp [hx])
      refine ⟨?_, ?_, ?_, ?_⟩
      · intro c hc
        obtain ⟨y, ys, hy⟩ := List.exists_cons_of_ne_nil hne
        simp [hy] at hc
        exact hsp c (by rw [← hc, hy]; simp)
      · intro c hc
        apply i2
        rw [List.getLast?_append, List.getLast?_cons, List.getLast?_eq_some_getLast hrne] at hc
        rw [List.getLast?_eq_some_getLast hrne]
        simpa using hc
      · have gen : ∀ v : Str, (∀ c ∈ v, isSpace c = false) → ¬ [' ', ' '] <:+: v ++ ' ' :: r := by
          intro v
          induction v with
          | nil =>
            intro _ h
            rw [List.nil_append, List.infix_cons_iff] at h
            rcases h with h | h
            · rw [hx] at h
              simp only [List.cons_prefix_cons, true_and] at h
              rw [← h.1] at hxs
              exact absurd hxs (by decide)
            · exact i3 h
          | cons y ys ihy =>
            intro hv h
            rw [List.cons_append, List.infix_cons_iff] at h
            rcases h with h | h
            · simp only [List.cons_prefix_cons] at h
              have := hv y (by simp)
              rw [← h.1] at this
              exact absurd this (by decide)
            · exact ihy (fun c hc => hv c (by simp [hc])) h
        exact gen w hsp
      · intro c hc h
        rcases List.mem_append.1 hc with hc | hc
        · rw [hsp c hc] at h; exact absurd h (by simp)
        · rcases List.mem_cons.1 hc with hc | hc
          · exact hc
          · exact i4 c hc h

example : stringCleanAndSplit p!" a\t bc   d" = [p!"a", p!"bc", p!"d"] := by decide
example : stringCleanAndSplit p!" \t" = [[]] := by decide

/-! ### C05 -/

/-- C05: `find_ind` returns the least index whose entry contains the substring. -/
theorem C05_find_ind_ok (data : List Str) (sub : Str) (i : Nat) :
    findInd data sub = .ok i ↔ Spec.IsLeast (fun j => ∃ s, data[j]? = some s ∧ sub <:+: s) i := by
  rw [findInd_eq, orErr_ok_iff, findIdx?_isLeast]; simp only [hasSub_iff]

/-- C05: it raises exactly when no entry contains it, with ValueError. -/
theorem C05_find_ind_error (data : List Str) (sub : Str) (e : Err) :
    findInd data sub = .error e ↔ e = .ValueError ∧ ∀ s ∈ data, ¬ sub <:+: s := by
  rw [findInd_eq, orErr_err_iff, List.findIdx?_eq_none_iff]
  simp only [hasSub_false_iff]
  exact and_comm

example : findInd [p!"xa", p!"yabz", p!"ab"] p!"ab" = .ok 1 := by decide
example : findInd [p!"xa", p!"yabz"] p!"q" = .error .ValueError := by decide

/-! ### C06 -/

/-- C06: least position of a non-zero / zero value. -/
theorem C06_first_positions {K : Type*} [Zero K] [DecidableEq K] (vals : List K) (i : Nat) :
    (findFirstNonZero vals = some i ↔ Spec.IsLeast (fun j => ∃ v, vals[j]? = some v ∧ v ≠ 0) i) ∧
    (findFirstZero vals = some i ↔ Spec.IsLeast (fun j => ∃ v, vals[j]? = some v ∧ v = 0) i) := by
  rw [findFirstNonZero_eq, findFirstZero_eq, findIdx?_isLeast, findIdx?_isLeast]
  simp

/-- C06: when the answer is None, and which of the two answers is 0. -/
theorem C06_none_and_head {K : Type*} [Zero K] [DecidableEq K] (vals : List K) :
    (findFirstNonZero vals = none ↔ ∀ v ∈ vals, v = 0) ∧
    (findFirstZero vals = none ↔ ∀ v ∈ vals, v ≠ 0) ∧
    (vals ≠ [] → (findFirstNonZero vals = some 0 ∧ findFirstZero vals ≠ some 0) ∨
      (findFirstNonZero vals ≠ some 0 ∧ findFirstZero vals = some 0)) := by
  rw [findFirstNonZero_eq, findFirstZero_eq]
  refine ⟨by simp [List.findIdx?_eq_none_iff], by simp [List.findIdx?_eq_none_iff], ?_⟩
  intro h
  obtain ⟨x, xs, rfl⟩ := List.exists_cons_of_ne_nil h
  by_cases hx : x = 0
  · right; simp [List.findIdx?_cons, hx]
  · left; simp [List.findIdx?_cons, hx]

example : findFirstNonZero [(0 : Int), 0, 3, 0] = some 2 ∧ findFirstZero [(0 : Int), 0, 3, 0] = some 0 := by
  decide

/-! ### C07 -/

/-- The lengths met when going down first elements until something that is not a list. -/
inductive FirstLengths {α : Type*} : Nested α → List Nat → Prop
  | atom (a) : FirstLengths (.atom a) []
  | cons {x xs ds} : FirstLengths x ds → FirstLengths (.list (x :: xs)) ((x :: xs).length :: ds)

/-- A rectangular nested list of shape `ds` (all extents positive). -/
inductive Rect {α : Type*} : Nested α → List Nat → Prop
  | atom (a) : Rect (.atom a) []
  | list {xs ds} : xs ≠ [] → (∀ x ∈ xs, Rect x ds) → Rect (.list xs) (xs.length :: ds)

private theorem dimLoop_empty {α : Type*} (n : Nat) : dimLoop n (.list [] : Nested α) = none := by
  induction n with
  | zero => rfl
  | succ n ih => simp [dimLoop, ih]

private theorem dimLoop_iff {α : Type*} (lst : Nested α) (ds : List Nat) :
    (∃ n, dimLoop n lst = some ds) ↔ FirstLengths lst ds := by
  constructor
  · rintro ⟨n, h⟩
    induction n generalizing lst ds with
    | zero => simp [dimLoop] at h
    | succ n ih =>
      cases lst with
      | atom a => simp [dimLoop] at h; subst h; exact .atom a
      | list xs =>
        cases xs with
        | nil => rw [dimLoop_empty] at h; simp at h
        | cons y ys =>
          simp only [dimLoop, Option.map_eq_some_iff] at h
          obtain ⟨ds', h', rfl⟩ := h
          exact .cons (ih _ _ h')
  · intro h
    induction h with
    | atom a => exact ⟨1, rfl⟩
    | cons _ ih =>
      obtain ⟨n, hn⟩ := ih
      exact ⟨n + 1, by simp [dimLoop, hn]⟩

/-- C07 (part that holds): whenever the function returns, the result is the list of lengths met going down first
    elements, and it does return when that descent reaches something that is not a list. Missing: it does not
    return when the descent reaches an empty list (`C07_violated`). -/
theorem C07_dimensions_partial {α : Type*} (lst : Nested α) (ds : List Nat) :
    GetListDimensions lst ds ↔ FirstLengths lst ds := by
  cases lst with
  | atom a =>
    constructor
    · intro h; cases h; exact .atom a
    · intro h; cases h; rfl
  | list xs => exact dimLoop_iff _ _

/-- C07 (part that holds): rectangular lists give their shape and nothing else. -/
theorem C07_rectangular_partial {α : Type*} (lst : Nested α) (ds : List Nat) (h : Rect lst ds) (ds' : List Nat) :
    GetListDimensions lst ds' ↔ ds' = ds := by
  rw [C07_dimensions_partial]
  induction h generalizing ds' with
  | atom a =>
    constructor
    · intro h; cases h; rfl
    · rintro rfl; exact .atom a
  | @list xs ds hne _ ih =>
    obtain ⟨x, xs, rfl⟩ := List.exists_cons_of_ne_nil hne
    constructor
    · intro h
      cases h with
      | cons h => rw [(ih x (by simp) _).1 h]
    · rintro rfl
      exact .cons ((ih x (by simp) _).2 rfl)

/-- C07 is violated: on `[]`, and on every list whose first-element chain ends in `[]`, the loop never ends. -/
theorem C07_violated :
    ¬ (∀ lst : Nested Int, ∃ ds, GetListDimensions lst ds) ∧
    (∀ n, dimLoop n (.list [] : Nested Int) = none) := by
  refine ⟨?_, dimLoop_empty⟩
  intro h
  obtain ⟨ds, n, hn⟩ := h (.list [])
  rw [dimLoop_empty] at hn
  simp at hn

example : Rect (.list [.list [.atom 1, .atom 2], .list [.atom 3, .atom 4]] : Nested Int) [2, 2] := by
  refine .list (by simp) ?_
  intro x hx
  simp at hx
  rcases hx with rfl | rfl <;> exact .list (by simp) (by intro y hy; simp at hy; rcases hy with rfl | rfl <;> exact .atom _)

/-! ### C08 -/

/-- `Replaced` determines the result. -/
theorem C08_replaced_functional (old new s t t' : Str) (hne : old ≠ [])
    (h : Spec.Replaced old new s t) (h' : Spec.Replaced old new s t') : t = t' := by
  rw [replaced_unique hne h, replaced_unique hne h']

/-- C08 (part that holds): the new content is the text as read (newlines normalised to `\n`) with the leftmost
    non-overlapping occurrences replaced; for a file without `\r` that is the content itself, which is left
    unchanged if `old` does not occur. Missing: files with `\r` (`C08_violated`). -/
theorem C08_replace_partial (fs : FS) (fname content old new : Str) (hne : old ≠ [])
    (h : fs.node fname = some (.file content)) (hw : fs.canWrite fname = true) :
    ∃ out, textReplace fname old new fs = (.ok (), fs.put fname (.file out)) ∧
      ('\r' ∉ content → Spec.Replaced old new content out) ∧
      ('\r' ∉ content → ¬ old <:+: content → out = content) ∧
      ∃ mid text, Spec.Replaced p!"\r\n" p!"\n" content mid ∧ Spec.Replaced p!"\r" p!"\n" mid text ∧
        Spec.Replaced old new text out := by
  refine ⟨replaceAux old new 0 (univNL content), ?_, ?_, ?_, replaceAux p!"\r\n" p!"\n" 0 content,
    univNL content, ?_⟩
  · unfold textReplace
    rw [PyM.bind_ok (a := univNL content) (fs' := fs) (by simp [readText, h]), replace_of_ne_nil hne]
    simp [writeText, hw]
  · intro hr; rw [univNL_eq_self hr]; exact replaceAux_replaced hne _
  · intro hr ho; rw [univNL_eq_self hr]; exact replaceAux_absent ho
  · refine ⟨replaceAux_replaced (by simp) _, ?_, replaceAux_replaced hne _⟩
    rw [univNL_eq_replace]
    exact replaceAux_replaced (by simp) _

/-- C08: other files are untouched, and if the file cannot be read (or written) nothing changes. -/
theorem C08_frame (fs : FS) (fname old new : Str) :
    (∀ q, q ≠ fname → (textReplace fname old new fs).2.node q = fs.node q) ∧
    ((∀ c, fs.node fname ≠ some (.file c)) →
      (textReplace fname old new fs).1 ≠ .ok () ∧ (textReplace fname old new fs).2 = fs) ∧
    (fs.canWrite fname = false →
      (textReplace fname old new fs).1 ≠ .ok () ∧ (textReplace fname old new fs).2 = fs) := by
  unfold textReplace
  cases h : fs.node fname with
  | none =>
    rw [PyM.bind_err (e := .FileNotFoundError) (fs' := fs) (by simp [readText, h])]
    simp
  | some n =>
    cases n with
    | dir =>
      rw [PyM.bind_err (e := .OSError) (fs' := fs) (by simp [readText, h])]
      simp
    | file c =>
      rw [PyM.bind_ok (a := univNL c) (fs' := fs) (by simp [readText, h])]
      unfold writeText
      cases hw : fs.canWrite fname with
      | true => simp only [if_true]; refine ⟨fun q hq => put_other hq, ?_, by simp⟩; intro h; exact absurd rfl (h c)
      | false => simp

/-- C08 is violated: a CRLF file in which `old` does not occur is changed by the call. -/
theorem C08_violated :
    ∃ (fs : FS) (fname content old new : Str), old ≠ [] ∧ fs.node fname = some (.file content) ∧
      ¬ old <:+: content ∧ (textReplace fname old new fs).1 = .ok () ∧
      (textReplace fname old new fs).2.node fname ≠ some (.file content) := by
  refine ⟨exFS p!"a\r\n", p!"f", p!"a\r\n", p!"b", p!"c", by decide, by decide, by decide, by decide, by decide⟩

example : Spec.Replaced p!"ab" p!"x" p!"cabab" p!"cxx" :=
  .hit (pre := p!"c") (rest := p!"ab") (out := p!"x") (by decide)
    (.hit (pre := []) (rest := []) (out := []) (by decide) (.done (by decide)))
example : (exFS p!"cab").node p!"f" = some (.file p!"cab") ∧ (exFS p!"cab").canWrite p!"f" = true := by decide

/-! ### C09 -/

section
variable {K : Type*} [Field K] [LinearOrder K] [IsStrictOrderedRing K]

/-- C09: symmetry, translation invariance, monotonicity, reflexivity, strictness, triangle rule. -/
theorem C09_laws (a b c t u : K) :
    isSameValue a b t = isSameValue b a t ∧
    isSameValue (a + c) (b + c) t = isSameValue a b t ∧
    (t ≤ u → isSameValue a b t = true → isSameValue a b u = true) ∧
    (isSameValue a a t = true ↔ 0 < t) ∧
    (|a - b| = t → isSameValue a b t = false) ∧
    (isSameValue a b t = true → isSameValue b c u = true → isSameValue a c (t + u) = true) := by
  simp only [isSameValue, decide_eq_true_eq, decide_eq_false_iff_not, add_sub_add_right_eq_sub, sub_self, abs_zero,
    abs_sub_comm b a, true_and]
  refine ⟨fun h h' => lt_of_lt_of_le h' h, fun h => by rw [h]; exact lt_irrefl t, fun h h' => ?_⟩
  have := abs_sub_le a b c
  linarith

/-- C09: two values are the same within `t` exactly when each lies strictly within `t` of the other. -/
theorem C09_meaning (a b t : K) : isSameValue a b t = true ↔ b - t < a ∧ a < b + t := by
  simp only [isSameValue, decide_eq_true_eq, abs_lt]
  constructor
  · rintro ⟨h1, h2⟩; constructor <;> linarith
  · rintro ⟨h1, h2⟩; constructor <;> linarith

/-- C09: for no positive tolerance is the relation transitive. -/
theorem C09_not_transitive (t : K) (ht : 0 < t) :
    ∃ a b c : K, isSameValue a b t = true ∧ isSameValue b c t = true ∧ isSameValue a c t = false := by
  refine ⟨0, t * (2 / 3), t * (4 / 3), ?_, ?_, ?_⟩
  · rw [C09_meaning]; constructor <;> linarith
  · rw [C09_meaning]; constructor <;> linarith
  · rw [← Bool.not_eq_true, C09_meaning]
    rintro ⟨h1, h2⟩
    linarith
end

example : (0 : Rat) < 1 / 1000000 := by norm_num

/-! ### C10 -/

/-- C10: exactly the positions of lines containing a tab, increasing (hence without repetition). -/
theorem C10_find_tabs (lines : List Str) :
    (∀ i, i ∈ findTabsInList lines ↔ ∃ l, lines[i]? = some l ∧ '\t' ∈ l) ∧
    (findTabsInList lines).Pairwise (· < ·) := by
  refine ⟨fun i => ?_, zipIdx_filter_sorted (fun l => hasSub ['\t'] l) lines 0⟩
  unfold findTabsInList
  rw [zipIdx_filter_mem]
  simp only [hasSub_singleton]

/-- C10: after the replacement no tab is left, the other characters are kept in order, the length formula holds. -/
theorem C10_replace_tab (line : Str) (n : Int) :
    '\t' ∉ replaceTabWithSpace line n ∧
    (replaceTabWithSpace line n).filter (fun c => c ≠ ' ') = line.filter (fun c => c ≠ '\t' ∧ c ≠ ' ') ∧
    ((replaceTabWithSpace line n).length : Int) = line.length + line.count '\t' * (max n 0 - 1) ∧
    (replaceTabWithSpace line n).count ' ' = line.count ' ' + line.count '\t' * n.toNat := by
  unfold replaceTabWithSpace
  rw [replace_char_eq]
  refine ⟨?_, ?_, ?_, ?_⟩
  · intro h
    obtain ⟨c, hc, h⟩ := List.mem_flatMap.1 h
    split at h
    · simp at h
    · simp at h; exact absurd h.symm (by assumption)
  · induction line with
    | nil => rfl
    | cons c cs ih =>
      rw [List.flatMap_cons, List.filter_append, ih]
      by_cases h : c = '\t'
      · subst h
        rw [if_pos rfl, List.filter_eq_nil_iff.2 (by intro a ha; simp at ha; simp [ha.2]),
          List.filter_cons_of_neg (by simp)]
        rfl
      · by_cases h2 : c = ' '
        · subst h2; simp
        · simp [h, h2]
  · induction line with
    | nil => simp
    | cons c cs ih =>
      rw [List.flatMap_cons, List.length_append, Nat.cast_add, ih]
      by_cases h : c = '\t'
      · subst h
        simp only [if_true, List.length_replicate, List.length_cons, List.count_cons_self, Int.toNat_eq_max]
        push_cast
        generalize (List.count '\t' cs : Int) = k
        generalize max n 0 = m
        have : (k + 1) * (m - 1) = k * (m - 1) + (m - 1) := by rw [add_mul, one_mul]
        omega
      · simp only [h, if_false, List.length_cons, List.length_nil]
        rw [List.count_cons_of_ne (by simpa using h)]
        push_cast
        omega
  · induction line with
    | nil => simp
    | cons c cs ih =>
      rw [List.flatMap_cons, List.count_append, ih]
      by_cases h : c = '\t'
      · subst h
        rw [if_pos rfl, List.count_replicate_self, List.count_cons_self, List.count_cons_of_ne (by decide), add_mul]
        omega
      · rw [if_neg h, List.count_cons_of_ne (a := '\t') (by simpa using h), List.count_cons, List.count_cons]
        simp; omega

/-- C10: after replacing in every line no tab is found. -/
theorem C10_no_tabs_left (lines : List Str) (n : Int) :
    findTabsInList (lines.map (fun l => replaceTabWithSpace l n)) = [] := by
  rw [List.eq_nil_iff_forall_not_mem]
  intro i hi
  rw [(C10_find_tabs _).1] at hi
  obtain ⟨l, hl, ht⟩ := hi
  rw [List.getElem?_map, Option.map_eq_some_iff] at hl
  obtain ⟨l', _, rfl⟩ := hl
  exact (C10_replace_tab l' n).1 ht

example : findTabsInList [p!"a\tb", p!"c", p!"\t"] = [0, 2] ∧
    replaceTabWithSpace p!"a\tb" 2 = p!"a  b" ∧ replaceTabWithSpace p!"a\tb" (-1) = p!"ab" := by decide

/-! ### C11 -/

/-- Number of console handlers. -/
def consoles (hs : List Handler) : Nat := hs.countP (fun | .console _ => true | .file _ _ => false)
/-- Number of file handlers. -/
def files (hs : List Handler) : Nat := hs.countP (fun | .console _ => false | .file _ _ => true)

/-- C11: after any history, a successful set-up leaves one console handler at the requested level, plus one file
    handler iff a log file was given. -/
theorem C11_setup (env : LogEnv) (init : List Handler) (history : List LogCall) (f : Option Str) (cl fl : Str)
    (hok : (runCall env (runCalls env init history) (.setup f cl fl)).1 = .ok ()) :
    let after := runCalls env init (history ++ [.setup f cl fl])
    consoles after = 1 ∧ files after = (if f.isSome then 1 else 0) ∧
    (∃ l, env.level (upper cl) = .ok l ∧ .console l ∈ after) ∧
    (∀ p, f = some p → ∃ l, env.level (upper fl) = .ok l ∧
      .file (if p = p!"auto" then env.autoName else p) l ∈ after) := by
  simp only [runCalls, List.foldl_append, List.foldl_cons, List.foldl_nil]
  simp only [runCalls] at hok
  generalize List.foldl (fun hs c => (runCall env hs c).2) init history = hs at hok ⊢
  simp only [runCall, setupLogging] at hok ⊢
  cases hc : env.level (upper cl) with
  | error e => simp [hc] at hok
  | ok l =>
    cases f with
    | none => simp [consoles, files]
    | some p =>
      simp only [hc] at hok ⊢
      by_cases hopen : env.canOpen (if p = p!"auto" then env.autoName else p) = true
      · simp only [hopen, if_true] at hok ⊢
        cases hf : env.level (upper fl) with
        | error e => simp [hf] at hok
        | ok l2 => simp [consoles, files]
      · simp [hopen] at hok

/-- C11: `get_logger` keeps existing handlers as they are, and otherwise installs one console handler. -/
theorem C11_get_logger (env : LogEnv) (init : List Handler) (history : List LogCall) :
    let before := runCalls env init history
    let after := runCalls env init (history ++ [.get])
    (before ≠ [] → after = before) ∧
    (before = [] → (runCall env before .get).1 = .ok () → consoles after = 1 ∧ files after = 0) := by
  simp only [runCalls, List.foldl_append, List.foldl_cons, List.foldl_nil]
  generalize List.foldl (fun hs c => (runCall env hs c).2) init history = hs
  constructor
  · intro h; simp [runCall, getLogger, h]
  · rintro rfl
    simp only [runCall, getLogger, setupLogging, List.isEmpty_nil, if_true]
    cases env.level (upper p!"INFO") with
    | error e => simp
    | ok l => simp [consoles, files]

/-- C11: whatever happened, successful or not, starting from a clean logger there is never more than one handler of
    each kind, and a file handler is never there without the console handler. -/
theorem C11_never_duplicates (env : LogEnv) (history : List LogCall) :
    let hs := runCalls env [] history
    consoles hs ≤ 1 ∧ files hs ≤ consoles hs := by
  simp only [runCalls]
  have step : ∀ (hs : List Handler) (c : LogCall), (consoles hs ≤ 1 ∧ files hs ≤ consoles hs) →
      consoles (runCall env hs c).2 ≤ 1 ∧ files (runCall env hs c).2 ≤ consoles (runCall env hs c).2 := by
    have hsetup : ∀ (f : Option Str) (cl fl : Str) (hs : List Handler),
        consoles (setupLogging env f cl fl hs).2 ≤ 1 ∧
        files (setupLogging env f cl fl hs).2 ≤ consoles (setupLogging env f cl fl hs).2 := by
      intro f cl fl hs
      unfold setupLogging
      cases env.level (upper cl) with
      | error e => simp [consoles, files]
      | ok l =>
        cases f with
        | none => simp [consoles, files]
        | some p =>
          dsimp only
          generalize (if p = p!"auto" then env.autoName else p) = q
          split
          · cases env.level (upper fl) with
            | error e => simp [consoles, files]
            | ok l2 => simp [consoles, files]
          · simp [consoles, files]
    intro hs c h
    cases c with
    | setup f cl fl => exact hsetup f cl fl hs
    | get =>
      simp only [runCall, getLogger]
      split
      · exact hsetup _ _ _ _
      · exact h
  have : ∀ (cs : List LogCall) (hs : List Handler), (consoles hs ≤ 1 ∧ files hs ≤ consoles hs) →
      consoles (cs.foldl (fun hs c => (runCall env hs c).2) hs) ≤ 1 ∧
      files (cs.foldl (fun hs c => (runCall env hs c).2) hs) ≤
        consoles (cs.foldl (fun hs c => (runCall env hs c).2) hs) := by
    intro cs
    induction cs with
    | nil => intro hs h; exact h
    | cons c cs ih => intro hs h; exact ih _ (step hs c h)
  exact this history [] (by simp [consoles, files])

/-- C11: a set-up call with an unknown console or file level raises. -/
theorem C11_unknown_level (env : LogEnv) (hs : List Handler) (f : Option Str) (cl fl : Str) :
    ((∃ e, env.level (upper cl) = .error e) → (setupNtlogger env f cl fl hs).1 ≠ .ok ()) ∧
    (f.isSome → (∃ e, env.level (upper fl) = .error e) → (setupNtlogger env f cl fl hs).1 ≠ .ok ()) := by
  constructor
  · rintro ⟨e, h⟩; simp [setupNtlogger, setupLogging, h]
  · intro hf
    rintro ⟨e, h⟩
    obtain ⟨p, rfl⟩ := Option.isSome_iff_exists.1 hf
    simp only [setupNtlogger, setupLogging, h]
    cases env.level (upper cl) with
    | error e => simp
    | ok l =>
      dsimp only
      generalize (if p = p!"auto" then env.autoName else p) = q
      split <;> simp

/-- Environment for the examples. -/
def exEnv : LogEnv :=
  { level := fun s => if s = p!"INFO" then .ok 20 else if s = p!"DEBUG" then .ok 10 else .error .AttributeError
    canOpen := fun p => p ≠ p!"bad", autoName := p!"nt.log" }

example : (runCall exEnv (runCalls exEnv [] [.get, .setup (some p!"bad") p!"info" p!"debug", .get])
    (.setup (some p!"auto") p!"info" p!"debug")).1 = .ok () := by decide
example : runCalls exEnv [] [.get, .setup (some p!"auto") p!"info" p!"debug", .get] =
    [.console 20, .file p!"nt.log" 10] := by decide

end Props
