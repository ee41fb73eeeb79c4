/- Properties C12-C14, C16-C20: output_utilities.py, ofile_reduce.py, lost_points.py. -/
import Verif.Proofs.OutputUtilities
import Verif.Props.NeutUtilities
import Mathlib.Data.List.Forall2

namespace Props
open Py NeutUtilities OutputUtilities

/-! ### C12 -/

/-- C12: with a blank continuation prefix, the words of the lines are the words of the prefix followed by the words of
    the tokens. `f` is any function giving the words of a text (there is exactly one, see C04). -/
theorem C12_words_preserved (pre cont : Str) (tokens : List Str) (maxLen : Int) (out : List Str)
    (hb : Spec.Blank cont) (h : wrapTokens pre tokens maxLen cont = .ok out)
    (f : Str → List Str) (hf : ∀ s, Spec.IsWords s (f s)) :
    out.flatMap f = f pre ++ tokens.flatMap f := by
  have hf' : f = splitWs := by funext s; exact (splitWs_of_isWords (hf s)).symm
  subst hf'
  obtain ⟨L, C, hL, hout⟩ := wrapTokens_ok h
  have hw := wrapLoop_words (contPrefix_blank hb) _ _ _ _ _ hL
  simp only [List.flatMap_nil, List.nil_append] at hw
  rw [splitWs_append_blank (a := pre) (by simp; decide)] at hw
  rw [← hw]
  rcases hout with rfl | ⟨rfl, hC⟩
  · simp [splitWs_rstrip]
  · rw [← splitWs_rstrip C, hC]; simp

example : ∃ f : Str → List Str, ∀ s, Spec.IsWords s (f s) := ⟨splitWs, isWords_splitWs⟩
example : wrapTokens p!"m1" [p!"1001", p!" 0.5 ", p!"8016", p!"0.25"] 12 p!"     " =
    .ok [p!"m1 1001 0.5", p!"     8016", p!"     0.25"] := by decide
example : Spec.Blank p!"     " := by unfold Spec.Blank; decide

/-! ### C13 -/

/-- C13 (part that holds): a returned line can only be too long when it is the bare prefix or a continuation prefix
    followed by a single token. Missing: those two cases do occur (`C13_violated`). -/
theorem C13_width_partial (pre cont : Str) (tokens : List Str) (maxLen : Int) (out : List Str)
    (h : wrapTokens pre tokens maxLen cont = .ok out) :
    ∀ l ∈ out, (l.length : Int) ≤ maxLen ∨ l = rstrip pre ∨
      ∃ t ∈ tokens, l = (if cont ≠ [] ∧ cont.getLast? ≠ some ' ' then cont ++ [' '] else cont) ++ strip t := by
  obtain ⟨L, C, hL, hout⟩ := wrapTokens_ok h
  have hc : contPrefix cont = (if cont ≠ [] ∧ cont.getLast? ≠ some ' ' then cont ++ [' '] else cont) := by
    unfold contPrefix
    have : (!cont.isEmpty && !endsWith cont [' ']) = true ↔ (cont ≠ [] ∧ cont.getLast? ≠ some ' ') := by
      rw [Bool.and_eq_true, Bool.not_eq_true', Bool.not_eq_true', ← Bool.not_eq_true (endsWith _ _), endsWith_iff,
        List.isEmpty_eq_false_iff, ne_eq (a := cont.getLast?), List.getLast?_eq_some_iff]
      constructor
      · rintro ⟨a, b⟩; exact ⟨a, fun ⟨t, ht⟩ => b ⟨t, ht.symm⟩⟩
      · rintro ⟨a, b⟩; exact ⟨a, fun ⟨t, ht⟩ => b ⟨t, ht.symm⟩⟩
    by_cases h : (!cont.isEmpty && !endsWith cont [' ']) = true
    · rw [if_pos h, if_pos (this.1 h)]
    · rw [if_neg h, if_neg (fun h' => h (this.2 h'))]
  rw [← hc]
  have inv := wrapLoop_inv (maxLen := maxLen) (cont := contPrefix cont)
    (fun l => (l.length : Int) ≤ maxLen ∨ l = rstrip pre ∨ ∃ t ∈ tokens, l = contPrefix cont ++ strip t)
    tokens [] (pre ++ [' ']) L C (by simp)
    (Or.inr (Or.inl (rstrip_append_blank (by simp; decide))))
    (fun t ht _ => Or.inr (Or.inr ⟨t, ht, rfl⟩))
    (fun t ht _ c _ hlen => Or.inl (by
      split <;> simp only [List.length_append, List.length_cons, List.length_nil] <;> push_cast <;> omega))
    hL
  intro l hl
  rcases hout with rfl | ⟨rfl, _⟩
  · rcases List.mem_append.1 hl with hl | hl
    · exact inv.1 l hl
    · simp at hl; rw [hl]; exact inv.2
  · exact inv.1 l hl

/-- C13 (part that holds): the width is respected when the prefix and every token behind a continuation prefix fit. -/
theorem C13_width_fits_partial (pre cont : Str) (tokens : List Str) (maxLen : Int) (out : List Str)
    (h : wrapTokens pre tokens maxLen cont = .ok out) (hp : (pre.length : Int) ≤ maxLen)
    (ht : ∀ t ∈ tokens, (cont.length : Int) + 1 + (strip t).length ≤ maxLen) :
    ∀ l ∈ out, (l.length : Int) ≤ maxLen := by
  intro l hl
  rcases C13_width_partial pre cont tokens maxLen out h l hl with h1 | h1 | ⟨t, ht', h1⟩
  · exact h1
  · have := rstrip_length_le pre
    rw [h1]; omega
  · have := ht t ht'
    rw [h1]
    split <;> simp only [List.length_append, List.length_cons, List.length_nil] <;> push_cast <;> omega

/-- C13 is violated with the default width and continuation prefix: a 78 character token is accepted and gives a line
    of 83 characters; and a long prefix is never broken. -/
theorem C13_violated :
    (∃ out, wrapTokens p!"m1" [List.replicate 78 'a'] 80 p!"     " = .ok out ∧ ∃ l ∈ out, 80 < l.length) ∧
    (∃ out, wrapTokens (List.replicate 90 'a') [p!"b"] 80 p!"     " = .ok out ∧ ∃ l ∈ out, 80 < l.length) := by
  constructor
  · exact ⟨[p!"m1", p!"     " ++ List.replicate 78 'a'], by decide, _, by simp; right; rfl, by decide⟩
  · exact ⟨[List.replicate 90 'a', p!"     b"], by decide, List.replicate 90 'a', by simp, by decide⟩

/-! ### C14 -/

/-- C14: ValueError (and nothing else) exactly when some token that is not blank is, stripped, longer than the width. -/
theorem C14_error_iff (pre cont : Str) (tokens : List Str) (maxLen : Int) (e : Err) :
    wrapTokens pre tokens maxLen cont = .error e ↔
      e = .ValueError ∧ ∃ t ∈ tokens, strip t ≠ [] ∧ maxLen < ((strip t).length : Int) := by
  rw [wrapTokens_error, wrapLoop_error]

/-- C14: for a non-negative width blank tokens cannot matter. -/
theorem C14_error_iff_nonneg (pre cont : Str) (tokens : List Str) (maxLen : Int) (h0 : 0 ≤ maxLen) (e : Err) :
    wrapTokens pre tokens maxLen cont = .error e ↔
      e = .ValueError ∧ ∃ t ∈ tokens, maxLen < ((strip t).length : Int) := by
  rw [C14_error_iff]
  refine and_congr_right fun _ => exists_congr fun t => and_congr_right fun _ => ?_
  constructor
  · exact fun h => h.2
  · intro h
    refine ⟨?_, h⟩
    intro h'
    rw [h'] at h
    simp at h
    omega

/-- C14: no line ends in white space, the first line starts with the prefix (trimmed), and every other line starts with
    the space-terminated continuation prefix. -/
theorem C14_shape (pre cont : Str) (tokens : List Str) (maxLen : Int) (out : List Str)
    (h : wrapTokens pre tokens maxLen cont = .ok out) :
    (∀ l ∈ out, ∀ c ∈ l.getLast?, isSpace c = false) ∧
    (∀ l ∈ out.head?, rstrip pre <+: l) ∧
    (∀ l ∈ out.tail, cont <+: l ∧ (cont ≠ [] → cont.getLast? ≠ some ' ' → cont ++ [' '] <+: l)) := by
  obtain ⟨L, C, hL, hout⟩ := wrapTokens_ok h
  have inv := wrapLoop_inv (maxLen := maxLen) (cont := contPrefix cont)
    (fun l => rstrip l = l) tokens [] (pre ++ [' ']) L C (by simp) (rstrip_rstrip _)
    (fun t _ ht => rstrip_append_strip ht) (fun t _ ht c _ _ => rstrip_append_strip ht) hL
  obtain ⟨E, hE, htail, hhead⟩ := wrapLoop_shape tokens _ _ _ _ hL
  simp only [List.nil_append] at hE
  subst hE
  rw [rstrip_append_blank (b := [' ']) (by simp; decide)] at hhead
  have hmem : ∀ l ∈ out, rstrip l = l := by
    intro l hl
    rcases hout with rfl | ⟨rfl, _⟩
    · rcases List.mem_append.1 hl with hl | hl
      · exact inv.1 l hl
      · simp at hl; rw [hl]; exact inv.2
    · exact inv.1 l hl
  refine ⟨?_, ?_, ?_⟩
  · intro l hl c hc
    have h1 := hmem l hl
    rw [rstrip_eq_self_iff] at h1
    have hne : l ≠ [] := by rintro rfl; simp at hc
    have := h1 hne
    rw [List.getLast?_eq_some_getLast hne] at hc
    simp at hc
    rw [← hc]; exact this
  · intro l hl
    rcases hout with rfl | ⟨rfl, _⟩
    · exact hhead l hl
    · apply hhead
      cases out with
      | nil => simp at hl
      | cons x xs => simpa using hl
  · intro l hl
    have h1 : contPrefix cont <+: l := by
      apply htail
      rcases hout with rfl | ⟨rfl, _⟩
      · exact hl
      · cases out with
        | nil => simp at hl
        | cons x xs => simp at hl ⊢; exact Or.inl hl
    have h2 : cont <+: contPrefix cont := by
      unfold contPrefix
      split
      · exact List.prefix_append _ _
      · exact List.prefix_refl _
    refine ⟨h2.trans h1, ?_⟩
    intro hne hlast
    have : contPrefix cont = cont ++ [' '] := by
      unfold contPrefix
      rw [if_pos]
      rw [Bool.and_eq_true, Bool.not_eq_true', Bool.not_eq_true', ← Bool.not_eq_true (endsWith _ _), endsWith_iff,
        List.isEmpty_eq_false_iff]
      refine ⟨hne, ?_⟩
      rintro ⟨t, ht⟩
      apply hlast
      rw [← ht]; simp
    rw [← this]; exact h1

example : wrapTokens p!"m1" [p!"toolong"] 5 p!"&" = .error .ValueError := by decide
example : wrapTokens p!"m1" [p!"abc", p!"def", p!"", p!"gh"] 7 p!"&" =
    .ok [p!"m1 abc", p!"& def", p!"& gh"] := by decide

/-! ### C16 -/

/-- C16: lists of different lengths raise ValueError and change nothing. -/
theorem C16_mismatch {α β : Type} (str : α → Str) (strD : β → Str) (xs ys zs : List α) (data : Option (List β))
    (outpath : Str) (fs : FS)
    (h : ¬ (xs.length = ys.length ∧ xs.length = zs.length ∧ ∀ d ∈ data, d.length = xs.length)) :
    outputPoints str strD xs ys zs data outpath fs = (.error .ValueError, fs) := by
  unfold outputPoints
  by_cases h1 : xs.length ≠ ys.length ∨ xs.length ≠ zs.length
  · rw [if_pos h1]; rfl
  · rw [if_neg h1]
    cases data with
    | none => exact absurd ⟨by omega, by omega, by simp⟩ h
    | some d =>
      simp only
      rw [if_pos]
      · rfl
      · intro hd
        exact h ⟨by omega, by omega, by simpa using hd⟩

/-- C16: otherwise the file gets the header and exactly one row per point, in order; nothing else changes. -/
theorem C16_rows {α β : Type} (str : α → Str) (strD : β → Str) (xs ys zs : List α) (data : Option (List β))
    (outpath : Str) (fs : FS) (hw : fs.canWrite (outpath ++ p!".3d") = true)
    (h1 : xs.length = ys.length) (h2 : xs.length = zs.length) (h3 : ∀ d ∈ data, d.length = xs.length) :
    ∃ rows : List Str,
      outputPoints str strD xs ys zs data outpath fs =
        (.ok (), fs.put (outpath ++ p!".3d") (.file ((p!"x y z temp" :: rows).flatMap (fun l => l ++ ['\n'])))) ∧
      rows.length = xs.length ∧
      ∀ (i : Nat) (x y z : α), xs[i]? = some x → ys[i]? = some y → zs[i]? = some z →
        (data = none → rows[i]? = some (str x ++ p!" " ++ str y ++ p!" " ++ str z ++ p!" 1")) ∧
        ∀ d v, data = some d → d[i]? = some v →
          rows[i]? = some (str x ++ p!" " ++ str y ++ p!" " ++ str z ++ p!" " ++ strD v) := by
  unfold outputPoints
  rw [if_neg (by omega)]
  cases data with
  | none =>
    obtain ⟨hl, hr⟩ := pointRows_spec str xs ys zs (List.replicate xs.length ['1']) h1 h2 (by simp)
    refine ⟨_, by simp only; rw [writeLines_ok _ hw], hl, ?_⟩
    intro i x y z hx hy hz
    refine ⟨fun _ => ?_, by simp⟩
    have hi : i < xs.length := (List.getElem?_eq_some_iff.1 hx).1
    rw [hr i x y z ['1'] hx hy hz (by simp [hi])]
    simp
  | some d =>
    have hd : d.length = xs.length := h3 d rfl
    obtain ⟨hl, hr⟩ := pointRows_spec str xs ys zs (d.map strD) h1 h2 (by simp [hd])
    refine ⟨pointRows str xs ys zs (d.map strD), ?_, hl, ?_⟩
    · simp only
      rw [if_neg (by simpa using hd), writeLines_ok _ hw]
    · intro i x y z hx hy hz
      refine ⟨by simp, ?_⟩
      intro d' v hd' hv
      cases hd'
      rw [hr i x y z (strD v) hx hy hz (by simp [hv])]

example : (exFS p!"x").canWrite (p!"lost" ++ p!".3d") = true := by decide
example : (outputPoints natStr natStr [1, 2] [3, 4] [5, 6] (some [7, 8]) p!"o" (exFS p!"")).2.node p!"o.3d" =
    some (.file p!"x y z temp\n1 3 5 7\n2 4 6 8\n") := by decide

/-! ### C17 -/

/-- Every tally has a result and an error for each of its cells. -/
def Complete {α : Type} (ts : List (Tally α)) : Prop :=
  ∀ t ∈ ts, t.cells.length ≤ t.result.length ∧ t.cells.length ≤ t.err.length

/-- The (number, cell, result, error) quadruples in order. -/
def quads {α : Type} (ts : List (Tally α)) : List (α × α × α × α) :=
  ts.flatMap (fun t => (t.cells.zip (t.result.zip t.err)).map (fun x => (t.number, x.1, x.2.1, x.2.2)))

/-- C17: csv output of complete tallies. -/
theorem C17_csv {α : Type} (str : α → Str) (ts : List (Tally α)) (fname : Str) (fs : FS)
    (hw : fs.canWrite fname = true) (hc : Complete ts) :
    csvOut str (.many ts) fname fs =
      (.ok (), fs.put fname (.file ((quads ts).flatMap (fun q =>
        str q.1 ++ p!", " ++ str q.2.1 ++ p!", " ++ str q.2.2.1 ++ p!", " ++ str q.2.2.2 ++ p!"\n")))) := by
  unfold csvOut
  rw [PyM.bind_ok (fs' := fs) (a := (quads ts).map (fun q => csvRow str q.1 q.2.1 q.2.2.1 q.2.2.2))]
  · rw [writeLines_ok _ hw]
    congr 3
    rw [List.flatMap_map]
    rfl
  · rw [PyM.lift_run, Data.toList, allRows_ok _ _ hc]
    simp only [quads, List.map_flatMap, List.map_map]
    rfl

/-- C17: html table of complete tallies: one table row per quadruple, in order. -/
theorem C17_html {α : Type} (str : α → Str) (ts : List (Tally α)) (fname : Str) (fs : FS)
    (hw : fs.canWrite fname = true) (hc : Complete ts) :
    ∃ header footer : Str, htmlF4TabOut str (.many ts) fname fs =
      (.ok (), fs.put fname (.file (header ++ join ['\n'] ((quads ts).map (fun q =>
        p!"<tr><td>" ++ str q.1 ++ p!"</td><td>" ++ str q.2.1 ++ p!"</td><td>" ++ str q.2.2.1 ++
        p!"</td><td>" ++ str q.2.2.2 ++ p!"</td></tr>")) ++ footer))) ∧
      ¬ p!"<td>" <:+: header ∧ ¬ p!"<td>" <:+: footer := by
  refine ⟨htmlHeader ++ ['\n'], p!"\n</table></html>", ?_, ?_, ?_⟩
  rotate_left
  · rw [← hasSub_iff]; decide
  · rw [← hasSub_iff]; decide
  unfold htmlF4TabOut
  rw [PyM.bind_ok (fs' := fs) (a := (quads ts).map (fun q => htmlRow str q.1 q.2.1 q.2.2.1 q.2.2.2))]
  · unfold writeText
    rw [if_pos hw]
    have : ∀ q : α × α × α × α, htmlRow str q.1 q.2.1 q.2.2.1 q.2.2.2 =
        p!"<tr><td>" ++ str q.1 ++ p!"</td><td>" ++ str q.2.1 ++ p!"</td><td>" ++ str q.2.2.1 ++
        p!"</td><td>" ++ str q.2.2.2 ++ p!"</td></tr>" := by
      intro q; simp [htmlRow]
    simp only [this]
  · rw [PyM.lift_run, Data.toList, allRows_ok _ _ hc]
    simp only [quads, List.map_flatMap, List.map_map]
    rfl

/-- C17: an incomplete tally raises IndexError and nothing is written. -/
theorem C17_incomplete {α : Type} (str : α → Str) (ts : List (Tally α)) (fname : Str) (fs : FS)
    (hc : ¬ Complete ts) :
    csvOut str (.many ts) fname fs = (.error .IndexError, fs) ∧
    htmlF4TabOut str (.many ts) fname fs = (.error .IndexError, fs) := by
  have : ∃ t ∈ ts, t.result.length < t.cells.length ∨ t.err.length < t.cells.length := by
    unfold Complete at hc
    by_contra hn
    apply hc
    intro t ht
    by_contra h
    exact hn ⟨t, ht, by omega⟩
  constructor
  · exact PyM.bind_err (by rw [PyM.lift_run, Data.toList, allRows_err _ _ this])
  · exact PyM.bind_err (by rw [PyM.lift_run, Data.toList, allRows_err _ _ this])

/-- C17: a single tally and the one-element list give the same outcome. -/
theorem C17_single {α : Type} (str : α → Str) (t : Tally α) (fname : Str) (fs : FS) :
    csvOut str (.one t) fname fs = csvOut str (.many [t]) fname fs ∧
    htmlF4TabOut str (.one t) fname fs = htmlF4TabOut str (.many [t]) fname fs := ⟨rfl, rfl⟩

/-- A tally for the examples. -/
def exTally : Tally Nat := { number := 4, cells := [1, 2], result := [10, 20, 30], err := [5, 6] }
example : Complete [exTally, exTally] ∧ quads [exTally] = [(4, 1, 10, 5), (4, 2, 20, 6)] := by
  refine ⟨?_, by decide⟩
  intro t ht
  simp at ht
  subst ht; decide
example : ¬ Complete [exTally, { exTally with err := [] }] := by
  intro h
  have := (h _ (by simp; right; rfl)).2
  exact absurd this (by decide)

/-! ### C18 -/

/-- C18 is violated: `html_output` never succeeds and never writes anything, whatever the object; for objects with no
    statistical tests or at least ten per tally the exception is the AttributeError of the missing `ut.write_html`. -/
theorem C18_violated (o : HtmlObject) (fname : Str) (fs : FS) :
    (htmlOutput o fname fs).1 ≠ .ok () ∧ (htmlOutput o fname fs).2 = fs ∧
    ((∀ t ∈ o.tallyData, t.statTests = [] ∨ 10 ≤ t.statTests.length) →
      (htmlOutput o fname fs).1 = .error .AttributeError) := by
  unfold htmlOutput htmlLines
  cases hb : htmlTallies o.tallyData with
  | ok body =>
    rw [PyM.bind_ok (fs' := fs) (by rw [PyM.lift_run]; rfl)]
    simp [utWriteHtml]
  | error e =>
    rw [PyM.bind_err (e := e) (fs' := fs) (by rw [PyM.lift_run]; rfl)]
    refine ⟨by simp, rfl, ?_⟩
    intro h
    exfalso
    have : ∀ ts : List HtmlTally, (∀ t ∈ ts, t.statTests = [] ∨ 10 ≤ t.statTests.length) →
        ∃ l, htmlTallies ts = .ok l := by
      intro ts
      induction ts with
      | nil => intro _; exact ⟨[], rfl⟩
      | cons t ts ih =>
        intro h
        obtain ⟨l2, h2⟩ := ih (fun t ht => h t (by simp [ht]))
        have h1 : ∃ l, htmlTallyLines t = .ok l := by
          unfold htmlTallyLines htmlStats
          rcases h t (by simp) with h1 | h1
          · simp [h1]
          · have hne : t.statTests.isEmpty = false := by
              cases hs : t.statTests with
              | nil => rw [hs] at h1; simp at h1
              | cons _ _ => rfl
            have : ¬ t.statTests.length < 10 := by omega
            simp [hne, this]
        obtain ⟨l1, h1⟩ := h1
        exact ⟨l1 ++ l2, by rw [htmlTallies, h1]; simp only [h2]⟩
    obtain ⟨l, hl⟩ := this _ h
    rw [hl] at hb
    simp at hb

/-! ### C19 -/

/-- The text that marks the end of the transport part. -/
def termText : Str := p!"      run terminated when"

/-- C19: the output file holds exactly the lines from the first marked line to the end. -/
theorem C19_tail (fs : FS) (infile ofile : Str) (before after : List Str) (hit : Str)
    (hread : (getLines infile fs).1 = .ok (before ++ hit :: after)) (hhit : termText <+: hit)
    (hfirst : ∀ l ∈ before, ¬ termText <+: l) (hw : fs.canWrite ofile = true) :
    OfileReduce.reduceOfile infile ofile fs =
      (.ok (), fs.put ofile (.file ((hit :: after).flatMap (fun l => l ++ ['\n'])))) := by
  unfold OfileReduce.reduceOfile
  have hfs := getLines_snd infile fs
  rw [PyM.bind_ok (fs' := fs) (a := before ++ hit :: after) (Prod.ext hread hfs)]
  have hfind : findLine termText (before ++ hit :: after) 25 = .ok before.length := by
    rw [(C03_find_line_cases termText _ 25).1 (by decide)]
    refine ⟨⟨hit, by simp, hhit⟩, ?_⟩
    rintro j hj ⟨l, hl, hp⟩
    rw [List.getElem?_append_left hj] at hl
    exact hfirst l (List.mem_of_getElem? hl) hp
  rw [PyM.bind_ok (fs' := fs) (a := before.length) (by rw [PyM.lift_run]; exact Prod.ext hfind rfl)]
  simp only [List.drop_left]
  exact writeLines_ok _ hw

/-- C19: without a marked line it raises ValueError and writes nothing. -/
theorem C19_missing (fs : FS) (infile ofile : Str) (lines : List Str)
    (hread : (getLines infile fs).1 = .ok lines) (hno : ∀ l ∈ lines, ¬ termText <+: l) :
    OfileReduce.reduceOfile infile ofile fs = (.error .ValueError, fs) := by
  unfold OfileReduce.reduceOfile
  have hfs := getLines_snd infile fs
  rw [PyM.bind_ok (fs' := fs) (a := lines) (Prod.ext hread hfs)]
  have hfind : findLine termText lines 25 = .error .ValueError := by
    rw [C03_find_line_error]
    refine ⟨rfl, fun l hl h => hno l hl ?_⟩
    rw [← h]; exact List.take_prefix _ _
  exact PyM.bind_err (by rw [PyM.lift_run]; exact Prod.ext hfind rfl)

/-- C19: reducing a reduced file (to any writable place) reproduces it. -/
theorem C19_idempotent (fs : FS) (infile ofile ofile2 : Str)
    (hok : (OfileReduce.reduceOfile infile ofile fs).1 = .ok ())
    (hw2' : (OfileReduce.reduceOfile infile ofile fs).2.canWrite ofile2 = true) :
    (OfileReduce.reduceOfile ofile ofile2 (OfileReduce.reduceOfile infile ofile fs).2).1 = .ok () ∧
    (OfileReduce.reduceOfile ofile ofile2 (OfileReduce.reduceOfile infile ofile fs).2).2.node ofile2 =
      (OfileReduce.reduceOfile infile ofile fs).2.node ofile := by
  have hfs := getLines_snd infile fs
  cases hr : (getLines infile fs).1 with
  | error e =>
    have : OfileReduce.reduceOfile infile ofile fs = (.error e, fs) := by
      unfold OfileReduce.reduceOfile
      exact PyM.bind_err (Prod.ext hr hfs)
    rw [this] at hok; simp at hok
  | ok lines =>
    by_cases hno : ∀ l ∈ lines, ¬ termText <+: l
    · rw [C19_missing fs infile ofile lines hr hno] at hok; simp at hok
    · have hex : ∃ before hit after, lines = before ++ hit :: after ∧ termText <+: hit ∧
          ∀ l ∈ before, ¬ termText <+: l := by
        clear hr
        induction lines with
        | nil => simp at hno
        | cons x xs ih =>
          by_cases hx : termText <+: x
          · exact ⟨[], x, xs, rfl, hx, by simp⟩
          · have : ¬ ∀ l ∈ xs, ¬ termText <+: l := by
              intro h; apply hno; intro l hl
              rcases List.mem_cons.1 hl with rfl | hl
              · exact hx
              · exact h l hl
            obtain ⟨b, h, a, e, h1, h2⟩ := ih this
            refine ⟨x :: b, h, a, by simp [e], h1, ?_⟩
            intro l hl
            rcases List.mem_cons.1 hl with rfl | hl
            · exact hx
            · exact h2 l hl
      obtain ⟨before, hit, after, rfl, hhit, hfirst⟩ := hex
      by_cases hw : fs.canWrite ofile = true
      · have h1 := C19_tail fs infile ofile before after hit hr hhit hfirst hw
        rw [h1] at hw2' ⊢
        have hnode : fs.node infile ≠ none ∧ fs.node infile ≠ some .dir := by
          constructor
          · intro h; rw [getLines_none h] at hr; simp at hr
          · intro h; rw [getLines_dir h] at hr; simp at hr
        obtain ⟨content, hcontent⟩ : ∃ c, fs.node infile = some (.file c) := by
          cases h : fs.node infile with
          | none => exact absurd h hnode.1
          | some n => cases n with
            | file c => exact ⟨c, rfl⟩
            | dir => exact absurd h hnode.2
        rw [getLines_file hcontent] at hr
        simp only [Except.ok.injEq] at hr
        have hread2 : (getLines ofile (fs.put ofile (.file ((hit :: after).flatMap (fun l => l ++ ['\n']))))).1 =
            .ok ([] ++ hit :: after) := by
          rw [getLines_file put_self, univNL_splitlines_flatMap]
          · rfl
          · intro l hl
            apply mem_splitlines (s := univNL content)
            rw [hr]; exact List.mem_append_right _ hl
        rw [C19_tail _ ofile ofile2 [] after hit hread2 hhit (by simp) hw2']
        exact ⟨rfl, by simp [put_self]⟩
      · exfalso
        unfold OfileReduce.reduceOfile at hok
        rw [PyM.bind_ok (fs' := fs) (a := before ++ hit :: after) (Prod.ext hr hfs)] at hok
        rw [PyM.bind_run, PyM.lift_run] at hok
        cases hf : findLine p!"      run terminated when" (before ++ hit :: after) 25 with
        | error e => rw [hf] at hok; simp at hok
        | ok k =>
          rw [hf] at hok
          simp only at hok
          rw [writeLines_err _ (by simpa using hw)] at hok
          simp at hok

example : (getLines p!"f" (exFS p!"a\n      run terminated when 5\nb\n")).1 =
    .ok ([p!"a"] ++ p!"      run terminated when 5" :: [p!"b"]) := by decide
example : (OfileReduce.reduceOfile p!"f" p!"g" (exFS p!"a\n      run terminated when 5\nb\n")).1 = .ok () := by decide

/-! ### C20 -/

open LostPoints in
/-- C20: any line with the marker but a non-numeric column raises ValueError and nothing is written.
    `ls`, `last` are the lines of the text (newline-free); every text has this form. -/
theorem C20_bad_number {F : Type} (flt : Str → Option F) (str : F → Str) (path outpath content : Str) (fs : FS)
    (ls : List Str) (last : Str) (hnode : fs.node path = some (.file content))
    (htext : univNL content = ls.flatMap (fun l => l ++ ['\n']) ++ last)
    (hnl : ∀ l ∈ ls ++ [last], '\n' ∉ l)
    (hbad : ∃ l ∈ ls ++ [last], p!"x,y,z coordinates:" <:+: l ∧
      (flt (strip (slice l 28 40)) = none ∨ flt (strip (slice l 43 55)) = none ∨
        flt (strip (slice l 58 70)) = none)) :
    outputLostPoints flt str path outpath fs = (.error .ValueError, fs) := by
  unfold outputLostPoints
  rw [PyM.bind_ok (a := univNL content) (fs' := fs) (by simp [readText, hnode])]
  have hs : scan flt (keepLines (univNL content)) = .error .ValueError := by
    rw [htext, scan_keepLines flt (fun l hl => hnl l (by simp [hl])) (hnl last (by simp)), scan_eq]
    obtain ⟨l, hl, hm, hb⟩ := hbad
    have hl' : l ∈ (ls ++ [last]).filter (fun l => hasSub marker l) := by
      rw [List.mem_filter]; exact ⟨hl, hasSub_iff.2 hm⟩
    have hnone : coords flt l = none := by
      unfold coords fields
      dsimp only
      rcases hb with h | h | h
      · rw [h]
      · rw [h]
        cases flt (strip (slice l 28 40)) <;> rfl
      · rw [h]
        cases flt (strip (slice l 28 40)) <;> cases flt (strip (slice l 43 55)) <;> rfl
    have : ((ls ++ [last]).filter (fun l => hasSub marker l)).mapM (coords flt) = none := by
      generalize (ls ++ [last]).filter (fun l => hasSub marker l) = m at hl'
      induction m with
      | nil => simp at hl'
      | cons x xs ih =>
        rw [List.mapM_cons]
        rcases List.mem_cons.1 hl' with rfl | h
        · rw [hnone]; rfl
        · rw [ih h]
          cases coords flt x <;> rfl
    rw [this]
  exact PyM.bind_err (by rw [PyM.lift_run, hs])

/-- `pts` are the coordinates of the marked lines, in order. -/
def CoordsOf {F : Type} (flt : Str → Option F) (marked : List Str) (pts : List (F × F × F)) : Prop :=
  List.Forall₂ (fun l p => flt (strip (slice l 28 40)) = some p.1 ∧ flt (strip (slice l 43 55)) = some p.2.1 ∧
    flt (strip (slice l 58 70)) = some p.2.2) marked pts

open LostPoints in
/-- C20: otherwise the number of marked lines is returned, and the file gets exactly one row for each of them, in order
    (nothing is written if there is none). -/
theorem C20_complete {F : Type} (flt : Str → Option F) (str : F → Str) (path outpath content : Str) (fs : FS)
    (ls : List Str) (last : Str) (pts : List (F × F × F)) (hnode : fs.node path = some (.file content))
    (htext : univNL content = ls.flatMap (fun l => l ++ ['\n']) ++ last)
    (hnl : ∀ l ∈ ls ++ [last], '\n' ∉ l) (hw : fs.canWrite (outpath ++ p!".3d") = true)
    (hpts : CoordsOf flt ((ls ++ [last]).filter (fun l => decide (p!"x,y,z coordinates:" <:+: l))) pts) :
    (outputLostPoints flt str path outpath fs).1 =
      .ok ((ls ++ [last]).filter (fun l => decide (p!"x,y,z coordinates:" <:+: l))).length ∧
    (outputLostPoints flt str path outpath fs).2 =
      if pts = [] then fs else fs.put (outpath ++ p!".3d") (.file (p!"x y z temp\n" ++
        pts.flatMap (fun p => str p.1 ++ p!" " ++ str p.2.1 ++ p!" " ++ str p.2.2 ++ p!" 1\n"))) := by
  have hfilter : (ls ++ [last]).filter (fun l => decide (p!"x,y,z coordinates:" <:+: l)) =
      (ls ++ [last]).filter (fun l => hasSub marker l) := by
    congr 1; funext l
    rw [Bool.eq_iff_iff, decide_eq_true_eq, hasSub_iff]; rfl
  rw [hfilter] at hpts ⊢
  have hm : ((ls ++ [last]).filter (fun l => hasSub marker l)).mapM (coords flt) = some pts := by
    unfold CoordsOf at hpts
    generalize (ls ++ [last]).filter (fun l => hasSub marker l) = m at hpts
    induction hpts with
    | nil => rfl
    | @cons l p ml ps h _ ih =>
      have : coords flt l = some p := by
        unfold coords fields; simp [h.1, h.2.1, h.2.2]
      rw [List.mapM_cons, this, ih]; rfl
  have hs : scan flt (keepLines (univNL content)) = .ok pts := by
    rw [htext, scan_keepLines flt (fun l hl => hnl l (by simp [hl])) (hnl last (by simp)), scan_eq, hm]
  have hlen := List.Forall₂.length_eq hpts
  unfold outputLostPoints
  rw [PyM.bind_ok (a := univNL content) (fs' := fs) (by simp [readText, hnode]),
    PyM.bind_ok (a := pts) (fs' := fs) (by rw [PyM.lift_run, hs]), hlen]
  by_cases hp : pts = []
  · subst hp; simp
  · have hpos : 0 < pts.length := List.length_pos_of_ne_nil hp
    rw [if_pos hpos, if_neg hp]
    have hout : outputPoints str str (pts.map (·.1)) (pts.map (·.2.1)) (pts.map (·.2.2)) none outpath fs =
        (.ok (), fs.put (outpath ++ p!".3d") (.file (p!"x y z temp\n" ++
          pts.flatMap (fun p => str p.1 ++ p!" " ++ str p.2.1 ++ p!" " ++ str p.2.2 ++ p!" 1\n")))) := by
      unfold outputPoints
      rw [if_neg (by simp)]
      simp only
      rw [writeLines_ok _ hw]
      congr 3
      rw [List.flatMap_cons]
      congr 1
      simp only [List.length_map]
      clear hp hpos hs hm hpts hlen
      induction pts with
      | nil => rfl
      | cons p ps ih =>
        simp only [List.map_cons, List.length_cons, List.replicate_succ, pointRows, List.flatMap_cons, ih]
        simp
    rw [PyM.bind_ok hout]
    exact ⟨rfl, rfl⟩

/-- A float parser for the examples: natural numbers only. -/
def exFlt (s : Str) : Option Nat := pyNat s

/-- A line with three columns. -/
def exLost : Str := p!"  x,y,z coordinates:          11            " ++ p!"  22               33"
example : ∃ ls last, univNL (exLost ++ p!"\nother\n" ++ exLost) = List.flatMap (fun l => l ++ ['\n']) ls ++ last ∧
    (∀ l ∈ ls ++ [last], '\n' ∉ l) := by
  obtain ⟨ls, last, h, h1, h2⟩ := exists_lines (univNL (exLost ++ p!"\nother\n" ++ exLost))
  refine ⟨ls, last, h, ?_⟩
  intro l hl
  rcases List.mem_append.1 hl with hl | hl
  · exact h1 l hl
  · simp at hl; rw [hl]; exact h2
example : (LostPoints.outputLostPoints exFlt natStr p!"f" p!"o" (exFS (exLost ++ p!"\nother\n" ++ exLost))).1 = .ok 2 := by
  decide

end Props
