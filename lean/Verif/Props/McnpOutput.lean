/- Properties C93-C96, C98, C102, C105 of mcnp_output_reader.py: what is found in the whole output file. -/
import Verif.Proofs.McnpOutput

set_option linter.unusedSectionVars false
set_option linter.unusedSimpArgs false

namespace Props
open Py NeutUtilities McnpOutput
variable {F : Type}

/-! ### C93: tally numbers -/

/-- The standard header of the results of tally `n`: the number ends in column 15 and is followed by white space. -/
def TallyHeader (n : Nat) (l : Str) : Prop :=
  ∃ rest, l = p!"1tally" ++ List.replicate (9 - (natStr n).length) ' ' ++ natStr n ++ rest ∧ ∀ c ∈ rest.head?, isSpace c = true

private theorem split_header {n : Nat} {l : Str} (h : TallyHeader n l) (hl : (natStr n).length ≤ 8) :
    ∃ ws, splitWs l = p!"1tally" :: natStr n :: ws := by
  obtain ⟨rest, rfl, hr⟩ := h
  refine ⟨splitWs rest, ?_⟩
  obtain ⟨k, hk⟩ : ∃ k, 9 - (natStr n).length = k + 1 := ⟨8 - (natStr n).length, by omega⟩
  have hb : ∀ c ∈ List.replicate (9 - (natStr n).length) ' ', isSpace c = true := by
    intro c hc; rw [List.eq_of_mem_replicate hc]; decide
  rw [List.append_assoc, List.append_assoc, McnpInput.splitWs_word_append (by simp) (by decide), splitWs_blank_append hb,
    McnpInput.splitWs_word_append (natStr_ne_nil n) (fun c hc => isDigit_not_space (natStr_isDigit hc)) hr]
  rw [hk]
  simp [List.replicate_succ, isSpace_space]

/-- What `get_tally_nums` returns: no repetitions, and exactly the second words of the lines that begin with "1tally" and five
    blanks; it fails exactly when such a line has no second word. -/
theorem C93_numbers_partial (lines : List Str) :
    (∀ ns, getTallyNums lines = .ok ns → ns.Nodup ∧
      (∀ w, w ∈ ns ↔ ∃ l ∈ lines, p!"1tally     " <+: l ∧ ∃ v ws, Spec.IsWords l (v :: w :: ws)) ∧
      (∀ n, (natStr n).length ≤ 4 → (∃ l ∈ lines, TallyHeader n l) → natStr n ∈ ns)) ∧
    (∀ e, getTallyNums lines = .error e → e = .IndexError) ∧
    ((∃ ns, getTallyNums lines = .ok ns) ↔
      ∀ l ∈ lines, p!"1tally     " <+: l → ∃ v w ws, Spec.IsWords l (v :: w :: ws)) := by
  have hf : ∀ l, l ∈ lines.filter (fun l => decide (l.take 11 = p!"1tally     ")) ↔ l ∈ lines ∧ p!"1tally     " <+: l := by
    intro l
    rw [List.mem_filter, decide_eq_true_eq, take_eq_prefix (show p!"1tally     ".length = 11 from rfl)]
  refine ⟨?_, ?_, ?_⟩
  · intro ns h
    unfold getTallyNums at h
    simp only [ex_bind_ok, ex_pure, Except.ok.injEq] at h
    obtain ⟨ms, hm, rfl⟩ := h
    have key : ∀ w, w ∈ ms.dedup ↔ ∃ l ∈ lines, p!"1tally     " <+: l ∧ ∃ v ws, Spec.IsWords l (v :: w :: ws) := by
      intro w
      rw [List.mem_dedup]
      rw [mapM_except_ok_iff] at hm
      simp only [orErr_ok_iff, second_word] at hm
      constructor
      · intro hw
        obtain ⟨i, hi, rfl⟩ := List.getElem_of_mem hw
        have hi' := hi
        rw [← hm.length_eq] at hi'
        have h2 := hm.get hi' hi
        exact ⟨_, ((hf _).1 (List.get_mem _ ⟨i, hi'⟩)).1, ((hf _).1 (List.get_mem _ ⟨i, hi'⟩)).2, h2⟩
      · rintro ⟨l, hl, hp, v, ws, hw⟩
        obtain ⟨i, hi, he⟩ := List.getElem_of_mem ((hf l).2 ⟨hl, hp⟩)
        have hi' := hi
        rw [hm.length_eq] at hi'
        have h2 := hm.get hi hi'
        obtain ⟨v', ws', h2⟩ := h2
        simp only [List.get_eq_getElem, he] at h2
        rw [isWords_iff] at h2 hw
        rw [hw] at h2
        simp only [List.cons.injEq] at h2
        rw [h2.2.1]
        exact List.getElem_mem _
    refine ⟨List.nodup_dedup _, key, ?_⟩
    rintro n hn ⟨l, hl, hh⟩
    rw [key]
    obtain ⟨ws, hw⟩ := split_header hh (by omega)
    refine ⟨l, hl, ?_, _, ws, isWords_iff.2 hw⟩
    obtain ⟨rest, rfl, _⟩ := hh
    obtain ⟨k, hk⟩ : ∃ k, 9 - (natStr n).length = 5 + k := ⟨4 - (natStr n).length, by omega⟩
    rw [hk, List.replicate_add]
    simp [List.replicate_succ]
  · intro e h
    unfold getTallyNums at h
    simp only [ex_bind_err, ex_pure, reduceCtorEq, and_false, exists_false, or_false] at h
    obtain ⟨l, _, hl⟩ := mapM_except_err h
    exact (orErr_err_iff.1 hl).2
  · constructor
    · rintro ⟨ns, h⟩ l hl hp
      unfold getTallyNums at h
      simp only [ex_bind_ok, ex_pure, Except.ok.injEq] at h
      obtain ⟨ms, hm, rfl⟩ := h
      rw [mapM_except_ok_iff] at hm
      obtain ⟨i, hi, he⟩ := List.getElem_of_mem ((hf l).2 ⟨hl, hp⟩)
      have hi' := hi
      rw [hm.length_eq] at hi'
      have h2 := hm.get hi hi'
      simp only [List.get_eq_getElem, he, orErr_ok_iff, second_word] at h2
      obtain ⟨v, ws, h2⟩ := h2
      exact ⟨v, _, ws, h2⟩
    · intro h
      have : ∃ ms, (lines.filter (fun l => decide (l.take 11 = p!"1tally     "))).mapM
          (fun l => orErr Err.IndexError (stringCleanAndSplit l)[1]?) = .ok ms := by
        cases hr : (lines.filter (fun l => decide (l.take 11 = p!"1tally     "))).mapM
          (fun l => orErr Err.IndexError (stringCleanAndSplit l)[1]?) with
        | ok ms => exact ⟨ms, rfl⟩
        | error e =>
          obtain ⟨l, hl, he⟩ := mapM_except_err hr
          obtain ⟨h1, h2⟩ := (hf l).1 hl
          obtain ⟨v, w, ws, hw⟩ := h l h1 h2
          have := second_word.2 ⟨v, ws, hw⟩
          rw [this] at he
          simp [orErr] at he
      obtain ⟨ms, hm⟩ := this
      refine ⟨ms.dedup, ?_⟩
      unfold getTallyNums
      rw [hm]; rfl

/-- Five blanks are required, so a tally whose number has five to eight digits is never found, whatever else its header
    contains. -/
theorem C93_long_numbers_violated (n : Nat) (h1 : 5 ≤ (natStr n).length) (h2 : (natStr n).length ≤ 8) :
    (∀ l, TallyHeader n l → getTallyNums [l] = .ok []) ∧ ∃ l, TallyHeader n l := by
  refine ⟨?_, _, [], rfl, by simp⟩
  rintro l ⟨rest, rfl, _⟩
  unfold getTallyNums
  rw [List.filter_cons_of_neg]
  · rfl
  · rw [decide_eq_true_eq, take_eq_prefix (show p!"1tally     ".length = 11 from rfl)]
    intro hp
    obtain ⟨k, hk⟩ : ∃ k, (natStr n).length = k + 5 := ⟨(natStr n).length - 5, by omega⟩
    have hb : 9 - (natStr n).length ≤ 4 := by omega
    have h3 : p!"     " <+: List.replicate (9 - (natStr n).length) ' ' ++ natStr n ++ rest := by
      obtain ⟨t, ht⟩ := hp
      refine ⟨t, ?_⟩
      have : p!"1tally" ++ (p!"     " ++ t) = p!"1tally" ++ (List.replicate (9 - (natStr n).length) ' ' ++ natStr n ++ rest) := by
        simpa using ht
      exact List.append_cancel_left this
    have h4 := List.prefix_iff_getElem?.1 h3 (9 - (natStr n).length) (by simp; omega)
    rw [List.append_assoc, List.getElem?_append_right (by simp)] at h4
    simp only [List.length_replicate, Nat.sub_self] at h4
    rw [List.getElem?_append_left (by omega)] at h4
    have h5 : (natStr n)[0]? = some ' ' := by
      rw [h4]
      congr 1
      have : ∀ (i : Nat) (hi : i < p!"     ".length), p!"     "[i] = ' ' := by
        intro i hi
        have : p!"     " = List.replicate 5 ' ' := rfl
        simp only [this, List.getElem_replicate]
      exact this _ _
    have := natStr_isDigit (List.mem_of_getElem? h5)
    exact absurd this (by decide)

example : getTallyNums [p!"1tally        4        nps =     1000", p!"x", p!"1tally     1004   nps = 1", p!"1tally        4        nps = 2"]
    = .ok [p!"1004", p!"4"] := by decide +kernel
example : TallyHeader 4 p!"1tally        4        nps =     1000" := ⟨p!"        nps =     1000", by decide +kernel, by decide +kernel⟩
example : 5 ≤ (natStr 10004).length ∧ (natStr 10004).length ≤ 8 := by decide +kernel

/-! ### C94: rendezvous bookkeeping -/

/-- Line `i` is a rendezvous line. -/
def Rdv (lines : List Str) (i : Nat) : Prop := ∃ l, lines[i]? = some l ∧ p!"master set rendezvous nps" <:+: l

private theorem mem_rdv (lines : List Str) (i : Nat) : i ∈ getRendevousIndex lines ↔ Rdv lines i := by
  unfold getRendevousIndex Rdv
  rw [zipIdx_filter_mem]
  simp only [hasSub_iff]

theorem C94_index (lines : List Str) :
    (getRendevousIndex lines).Pairwise (· < ·) ∧ ∀ i, i ∈ getRendevousIndex lines ↔ Rdv lines i :=
  ⟨zipIdx_filter_sorted _ _ _, mem_rdv lines⟩

private theorem zipIdx_filter_length {α : Type} (p : α → Bool) (l : List α) (n : Nat) :
    (((l.zipIdx n).filter (fun e => p e.1)).map (·.2)).length = l.countP p := by
  induction l generalizing n with
  | nil => rfl
  | cons x xs ih =>
    rw [List.zipIdx_cons, List.countP_cons]
    by_cases h : p x = true
    · rw [List.filter_cons_of_pos (by simpa using h), List.map_cons, List.length_cons, ih]; simp [h]
    · rw [List.filter_cons_of_neg (by simpa using h), ih]; simp [h]

theorem C94_count (lines : List Str) :
    countRendevous lines = lines.countP (fun l => decide (p!"master set rendezvous nps" <:+: l)) := by
  unfold countRendevous getRendevousIndex
  rw [zipIdx_filter_length (fun l => hasSub p!"master set rendezvous nps" l)]
  apply List.countP_congr
  intro l _
  rw [hasSub_iff, decide_eq_true_eq]

/-- The second last rendezvous line is the one with exactly one rendezvous line behind it. -/
theorem C94_last (lines : List Str) :
    (∀ i, findLastRendevous lines = some i ↔ Rdv lines i ∧ ∃! j, i < j ∧ Rdv lines j) ∧
    (findLastRendevous lines = none ↔ countRendevous lines < 2) := by
  have hs : (getRendevousIndex lines).Pairwise (· < ·) := zipIdx_filter_sorted _ _ _
  have hm := mem_rdv lines
  unfold findLastRendevous countRendevous
  by_cases hl : (getRendevousIndex lines).length < 2
  · simp only [hl, if_true, iff_true, and_true, reduceCtorEq, false_iff]
    rintro i ⟨hi, j, ⟨hij, hj⟩, _⟩
    rw [← hm] at hi hj
    generalize getRendevousIndex lines = ix at *
    rcases ix with _ | ⟨a, _ | ⟨b, ix⟩⟩
    · simp at hi
    · simp at hi hj; omega
    · simp only [List.length_cons] at hl; omega
  · simp only [hl, if_false, iff_false]
    obtain ⟨a, x, y, he⟩ := last_two _ (Nat.le_of_not_lt hl)
    rw [he] at hs hm ⊢
    rw [getI_snd_last]
    rw [List.pairwise_append] at hs
    obtain ⟨_, hxy, hax⟩ := hs
    have hxy : x < y := by simpa using hxy
    refine ⟨?_, by simp⟩
    intro i
    simp only [Option.some.injEq]
    have hx : Rdv lines x := (hm x).1 (by simp)
    have hy : Rdv lines y := (hm y).1 (by simp)
    have hle : ∀ j, Rdv lines j → j ≤ y := by
      intro j hj
      have := (hm j).2 hj
      simp only [List.mem_append, List.mem_cons, List.not_mem_nil, or_false] at this
      rcases this with h | h | h
      · have := hax j h y (by simp); omega
      · omega
      · omega
    constructor
    · rintro rfl
      refine ⟨hx, y, ⟨hxy, hy⟩, ?_⟩
      rintro j ⟨h1, h2⟩
      have := (hm j).2 h2
      simp only [List.mem_append, List.mem_cons, List.not_mem_nil, or_false] at this
      rcases this with h | h | h
      · have := hax j h x (by simp); omega
      · omega
      · exact h
    · rintro ⟨hi, j, ⟨hij, hj⟩, hu⟩
      have := (hm i).2 hi
      simp only [List.mem_append, List.mem_cons, List.not_mem_nil, or_false] at this
      rcases this with h | h | h
      · have e1 := hu x ⟨hax i h x (by simp), hx⟩
        have e2 := hu y ⟨hax i h y (by simp), hy⟩
        omega
      · exact h.symm
      · have := hle j hj; omega

/-- A termination line. -/
def TermLine (l : Str) : Prop := p!"      run terminated " <+: l

theorem C94_term (lines : List Str) :
    (∀ i, findTermLine lines = some i ↔ Spec.IsLeast (fun j => ∃ l, lines[j]? = some l ∧ TermLine l) i) ∧
    (findTermLine lines = none ↔ ∀ l ∈ lines, ¬ TermLine l) := by
  unfold findTermLine
  cases h : findLine p!"      run terminated " lines 21 with
  | ok i =>
    simp only [reduceCtorEq, false_iff, Option.some.injEq]
    have h1 := (findLine_prefix rfl).1 h
    refine ⟨fun j => ?_, ?_⟩
    · constructor
      · rintro rfl; exact h1
      · intro h2
        rw [← Except.ok.injEq (ε := Err), ← h]
        exact (findLine_prefix rfl).2 h2
    · intro h2
      obtain ⟨l, hl, ht⟩ := h1.1
      exact h2 l (List.mem_of_getElem? hl) ht
  | error e =>
    simp only [reduceCtorEq, false_iff, true_iff]
    have h1 := ((findLine_none rfl).1 h).2
    refine ⟨fun j h2 => ?_, h1⟩
    obtain ⟨l, hl, ht⟩ := h2.1
    exact h1 l (List.mem_of_getElem? hl) ht

example : getRendevousIndex [p!"a", p!" master set rendezvous nps = 1", p!"b", p!" master set rendezvous nps = 2"] = [1, 3] ∧
    findLastRendevous [p!"a", p!" master set rendezvous nps = 1", p!"b", p!" master set rendezvous nps = 2"] = some 1 := by
  decide +kernel
example : findTermLine [p!"a", p!"      run terminated when", p!"      run terminated when"] = some 1 := by decide +kernel

/-! ### C95: the final result set -/

theorem finalLines_term {pre tail : List Str} {t : Str} (ht : TermLine t) (hp : ∀ l ∈ pre, ¬ TermLine l) :
    finalLines (pre ++ t :: tail) = t :: tail := by
  have : findTermLine (pre ++ t :: tail) = some pre.length := by
    rw [(C94_term _).1]
    refine ⟨⟨t, by simp, ht⟩, ?_⟩
    rintro j hj ⟨l, hl, hterm⟩
    rw [List.getElem?_append_left hj] at hl
    exact hp l (List.mem_of_getElem? hl) hterm
  unfold finalLines
  rw [this]
  simp

/-- Whatever is printed before the first termination line has no influence on any tally. -/
theorem C95_final_results [LinearOrder F] (flt : Str → Option F) (minusOne : F) (enum : List Str → List Str) (tnum : Str)
    {pre pre' tail : List Str} {t : Str} (ht : TermLine t) (hp : ∀ l ∈ pre, ¬ TermLine l) (hp' : ∀ l ∈ pre', ¬ TermLine l) :
    readTally flt minusOne enum (pre ++ t :: tail) tnum = readTally flt minusOne enum (pre' ++ t :: tail) tnum := by
  unfold readTally
  rw [finalLines_term ht hp, finalLines_term ht hp']

/-- Without a header line of the tally behind the termination line there is no result, only ValueError. -/
theorem C95_no_header [LinearOrder F] (flt : Str → Option F) (minusOne : F) (enum : List Str → List Str) (n : Nat)
    (hn : (natStr n).length ≤ 9) {pre tail : List Str} {t : Str} (ht : TermLine t) (hp : ∀ l ∈ pre, ¬ TermLine l)
    (hh : ∀ l ∈ tail, ¬ (p!"1tally" ++ List.replicate (9 - (natStr n).length) ' ' ++ natStr n) <+: l) :
    readTally flt minusOne enum (pre ++ t :: tail) (natStr n) = .error .ValueError := by
  unfold readTally
  rw [finalLines_term ht hp]
  have hlen : (p!"1tally" ++ List.replicate (9 - (natStr n).length) ' ' ++ natStr n).length = 15 := by
    simp; omega
  have : findLine (p!"1tally" ++ List.replicate (9 - (natStr n).length) ' ' ++ natStr n) (t :: tail) 15 = .error .ValueError := by
    rw [findLine_none hlen]
    refine ⟨rfl, ?_⟩
    intro l hl
    rcases List.mem_cons.1 hl with rfl | hl
    · intro hpre
      obtain ⟨x, hx⟩ := ht
      obtain ⟨y, hy⟩ := hpre
      rw [← hx] at hy
      simp at hy
    · exact hh l hl
  unfold readTallyIn
  rw [this]; rfl

example : TermLine p!"      run terminated when 100 particle histories were done." := ⟨_, rfl⟩

/-! ### C96: comments, warnings, fatal errors -/

theorem C96_comments (lines : List Str) :
    (readCommentsWarnings lines).1 = lines.filter (fun l => decide (p!"  comment." <+: l)) ∧
    (readCommentsWarnings lines).2 = lines.filter (fun l => decide (p!"  warning." <+: l)) := by
  unfold readCommentsWarnings
  constructor <;> · apply List.filter_congr; intro l _; rw [Bool.eq_iff_iff, startsWith_iff, decide_eq_true_eq]

/-- "fatal" in any capitalisation: five consecutive characters, each the small letter or its capital. -/
def FatalText (w : Str) : Prop :=
  List.Forall₂ (fun c (d : Char × Char) => c = d.1 ∨ c = d.2) w [('f', 'F'), ('a', 'A'), ('t', 'T'), ('a', 'A'), ('l', 'L')]

private theorem fatal_lower (w : Str) : lower w = p!"fatal" ↔ FatalText w := by
  unfold lower FatalText
  have hf := fun c => toLower_eq_letter (c := c) 'f' 'F' (by decide) (by decide) (by decide)
  have ha := fun c => toLower_eq_letter (c := c) 'a' 'A' (by decide) (by decide) (by decide)
  have ht := fun c => toLower_eq_letter (c := c) 't' 'T' (by decide) (by decide) (by decide)
  have hl := fun c => toLower_eq_letter (c := c) 'l' 'L' (by decide) (by decide) (by decide)
  rcases w with _ | ⟨a, _ | ⟨b, _ | ⟨c, _ | ⟨d, _ | ⟨e, _ | ⟨f, w⟩⟩⟩⟩⟩⟩ <;> simp [hf, ha, ht, hl]

theorem C96_fatal (lines : List Str) : checkFatal lines = true ↔ ∃ l ∈ lines, ∃ w, FatalText w ∧ w <:+: l := by
  unfold checkFatal
  rw [List.any_eq_true]
  apply exists_congr
  intro l
  apply and_congr_right
  intro _
  rw [hasSub_iff]
  constructor
  · rintro ⟨a, b, h⟩
    obtain ⟨xy, z, h1, h2, _⟩ := McnpInput.lower_eq_append h.symm
    obtain ⟨x, y, h3, _, h4⟩ := McnpInput.lower_eq_append h2
    exact ⟨y, (fatal_lower y).1 h4, x, z, by rw [h1, h3]⟩
  · rintro ⟨w, hw, a, b, rfl⟩
    refine ⟨lower a, lower b, ?_⟩
    rw [← fatal_lower] at hw
    rw [← hw]; simp [lower]

example : checkFatal [p!"ok", p!"  FatAl error."] = true ∧ checkFatal [p!"fata l"] = false := by decide +kernel

/-! ### C98: labels of energy and time bins -/

/-- `out` lists the entries of `labels` without repetition, in order of first occurrence. -/
def FirstOccurrences (labels out : List Str) : Prop :=
  (∀ t, t ∈ out ↔ t ∈ labels) ∧ out.Pairwise (fun a b => labels.idxOf a < labels.idxOf b)

private theorem addNew_spec (labels : List Str) : FirstOccurrences labels (labels.foldl addNew []) := by
  induction labels using List.reverseRecOn with
  | nil => exact ⟨by simp, by simp⟩
  | append_singleton ls t ih =>
    obtain ⟨h1, h2⟩ := ih
    rw [List.foldl_append, List.foldl_cons, List.foldl_nil]
    have h3 : (ls.foldl addNew []).Pairwise (fun a b => (ls ++ [t]).idxOf a < (ls ++ [t]).idxOf b) := by
      apply h2.imp_of_mem
      intro a b ha hb hab
      rw [List.idxOf_append_of_mem ((h1 a).1 ha), List.idxOf_append_of_mem ((h1 b).1 hb)]
      exact hab
    unfold addNew
    by_cases ht : t ∈ ls.foldl addNew []
    · have ht' := ht
      unfold addNew at ht'
      rw [if_pos ht']
      refine ⟨?_, h3⟩
      intro x
      have := h1 x
      unfold addNew at this
      rw [this, List.mem_append]
      constructor
      · exact Or.inl
      · rintro (h | h)
        · exact h
        · rw [List.mem_singleton.1 h]; exact (h1 t).1 ht
    · have ht' := ht
      unfold addNew at ht'
      rw [if_neg ht']
      refine ⟨?_, ?_⟩
      · intro x
        have := h1 x
        unfold addNew at this
        rw [List.mem_append, this, List.mem_append]
      · rw [List.pairwise_append]
        refine ⟨h3, by simp, ?_⟩
        intro a ha b hb
        rw [List.mem_singleton.1 hb]
        have hta : t ∉ ls := fun h => ht ((h1 t).2 h)
        rw [List.idxOf_append_of_mem ((h1 a).1 ha), List.idxOf_append_of_notMem hta]
        have := List.idxOf_lt_length_of_mem ((h1 a).1 ha)
        omega

private theorem timeBins_eq (data : List Str) :
    engTimeGetTimeBins data = ((data.filter (hasSub p!"time")).flatMap (fun l => (splitWs l).drop 1)).foldl addNew [] := by
  unfold engTimeGetTimeBins
  suffices h : ∀ acc, data.foldl (fun bins line => if hasSub p!"time" line then
      ((splitOn ' ' (join p!" " (splitWs line))).drop 1).foldl addNew bins else bins) acc =
      ((data.filter (hasSub p!"time")).flatMap (fun l => (splitWs l).drop 1)).foldl addNew acc from h []
  induction data with
  | nil => intro acc; rfl
  | cons l ls ih =>
    intro acc
    rw [List.foldl_cons]
    by_cases h : hasSub p!"time" l = true
    · rw [if_pos h, ih, List.filter_cons_of_pos h, List.flatMap_cons, List.foldl_append]
      have := splitOn_stringCleaner_drop l 1 (by decide)
      rw [stringCleaner_eq] at this
      rw [this]
    · rw [if_neg h, ih, List.filter_cons_of_neg h]

/-- The time labels: the words behind the first word of every line that contains "time". -/
theorem C98_time_bins (data : List Str) (groups : List (List Str))
    (hg : List.Forall₂ (fun l g => ∃ w, Spec.IsWords l (w :: g)) (data.filter (fun l => decide (p!"time" <:+: l))) groups) :
    FirstOccurrences groups.flatten (engTimeGetTimeBins data) := by
  have : groups.flatten = (data.filter (hasSub p!"time")).flatMap (fun l => (splitWs l).drop 1) := by
    have hc : data.filter (fun l => decide (p!"time" <:+: l)) = data.filter (hasSub p!"time") := by
      apply List.filter_congr
      intro l _
      rw [Bool.eq_iff_iff, hasSub_iff, decide_eq_true_eq]
    rw [hc] at hg
    generalize data.filter (hasSub p!"time") = ls at hg
    induction hg with
    | nil => rfl
    | cons h _ ih =>
      obtain ⟨w, hw⟩ := h
      rw [List.flatten_cons, List.flatMap_cons, ih, isWords_iff.1 hw]
      rfl
  rw [timeBins_eq, this]
  exact addNew_spec _

/-- Every line containing "time" has words, so the hypothesis of `C98_time_bins` can always be met. -/
theorem C98_time_bins_total (data : List Str) : ∃ groups : List (List Str),
    List.Forall₂ (fun l g => ∃ w, Spec.IsWords l (w :: g)) (data.filter (fun l => decide (p!"time" <:+: l))) groups := by
  refine ⟨(data.filter (fun l => decide (p!"time" <:+: l))).map (fun l => (splitWs l).drop 1), ?_⟩
  rw [List.forall₂_map_right_iff, List.forall₂_same]
  intro l hl
  rw [List.mem_filter, decide_eq_true_eq] at hl
  have hne : splitWs l ≠ [] := by
    rw [ne_eq, splitWs_eq_nil_iff]
    intro h
    have := h 't' (hl.2.subset (by simp))
    exact absurd this (by decide)
  rcases hs : splitWs l with _ | ⟨w, ws⟩
  · exact absurd hs hne
  · exact ⟨w, isWords_iff.2 (by simp [hs])⟩

/-- `w` is the first word of `l`, or empty for a blank line. -/
def FirstWord (l w : Str) : Prop := (Spec.Blank l ∧ w = []) ∨ ∃ ws, Spec.IsWords l (w :: ws)

private theorem firstWord_head (l : Str) : FirstWord l ((splitOn ' ' (join p!" " (splitWs l))).headD []) := by
  have := McnpInput.splitOn_stringCleaner_headD l
  rw [stringCleaner_eq] at this
  rw [this]
  rcases hs : splitWs l with _ | ⟨w, ws⟩
  · exact Or.inl ⟨splitWs_eq_nil_iff.1 hs, rfl⟩
  · exact Or.inr ⟨ws, isWords_iff.2 hs⟩

private theorem engBinsIn_spec {body rest : List Str} (hb : ∀ l ∈ body, ¬ p!"total" <:+: l)
    (hr : ∀ l ∈ rest.head?, p!"total" <:+: l) : ∃ ws, List.Forall₂ FirstWord body ws ∧ engBinsIn (body ++ rest) = ws := by
  induction body with
  | nil =>
    refine ⟨[], .nil, ?_⟩
    cases rest with
    | nil => rfl
    | cons l ls => rw [List.nil_append, engBinsIn, if_pos (hasSub_iff.2 (hr l (by simp)))]
  | cons l ls ih =>
    obtain ⟨ws, h1, h2⟩ := ih (fun x hx => hb x (by simp [hx]))
    refine ⟨_ :: ws, .cons (firstWord_head l) h1, ?_⟩
    rw [List.cons_append, engBinsIn, if_neg (by rw [hasSub_iff]; exact hb l (by simp)), h2]

private theorem engBinsOut_skip {pre rest : List Str} (hp : ∀ l ∈ pre, ¬ p!"energy" <:+: l) :
    engBinsOut (pre ++ rest) = engBinsOut rest := by
  induction pre with
  | nil => rfl
  | cons l ls ih =>
    rw [List.cons_append, engBinsOut, if_neg (by rw [hasSub_iff]; exact hp l (by simp)), ih (fun x hx => hp x (by simp [hx]))]

theorem C98_energy_bins {pre body rest : List Str} {h : Str} (hp : ∀ l ∈ pre, ¬ p!"energy" <:+: l) (hh : p!"energy" <:+: h)
    (hb : ∀ l ∈ body, ¬ p!"total" <:+: l) (hr : ∀ l ∈ rest.head?, p!"total" <:+: l) :
    ∃ ws, List.Forall₂ FirstWord body ws ∧ engTimeGetEngBins (pre ++ h :: (body ++ rest)) = ws ++ [p!"total"] := by
  obtain ⟨ws, h1, h2⟩ := engBinsIn_spec hb hr
  refine ⟨ws, h1, ?_⟩
  unfold engTimeGetEngBins
  rw [engBinsOut_skip hp, engBinsOut, if_pos (hasSub_iff.2 hh), h2]

theorem C98_no_energy {data : List Str} (h : ∀ l ∈ data, ¬ p!"energy" <:+: l) : engTimeGetEngBins data = [p!"total"] := by
  have := engBinsOut_skip (rest := []) h
  rw [List.append_nil] at this
  unfold engTimeGetEngBins
  rw [this]; rfl

example : engTimeGetTimeBins [p!"  time:  1.0  2.0", p!"x", p!"  time:  2.0  3.0"] = [p!"1.0", p!"2.0", p!"3.0"] ∧
    engTimeGetEngBins [p!"time", p!"  energy", p!"  1.0 2 3", p!" 2.0 3 4", p!" total 5"] = [p!"1.0", p!"2.0", p!"total"] := by
  decide +kernel

/-! ### C102: print tables -/

/-- The line announces print table `key`: the text behind its last blank, at most three characters, not 160 or 161. -/
def AnnouncesRun (l key : Str) : Prop :=
  p!"print table" <:+: l ∧ (∃ pre, l = pre ++ ' ' :: key) ∧ ' ' ∉ key ∧ key ≠ p!"160" ∧ key ≠ p!"161" ∧ key.length ≤ 3

private def tableEntry (e : Str × Nat) : Option (Str × Nat) :=
  if hasSub p!"print table" e.1 then
    let key := (splitOn ' ' e.1).getLastD []
    if key = p!"160" ∨ key = p!"161" ∨ key.length > 3 then none else some (key, e.2)
  else none

private theorem tableDict_eq (lines : List Str) :
    getTableDict lines = (lines.zipIdx.filterMap tableEntry).foldl (fun (d : Dict Str Nat) e => d.set e.1 e.2) [] := by
  unfold getTableDict
  generalize ([] : Dict Str Nat) = d
  generalize lines.zipIdx = ls
  induction ls generalizing d with
  | nil => rfl
  | cons e ls ih =>
    rw [List.foldl_cons, ih, List.filterMap_cons]
    unfold tableEntry
    by_cases h : hasSub p!"print table" e.1 = true
    · simp only [h, if_true]
      by_cases h2 : (splitOn ' ' e.1).getLastD [] = p!"160" ∨ (splitOn ' ' e.1).getLastD [] = p!"161" ∨
          ((splitOn ' ' e.1).getLastD []).length > 3
      · rw [if_pos h2, if_pos h2]
      · rw [if_neg h2, if_neg h2]; rfl
    · simp only [h, Bool.false_eq_true, if_false]

private theorem last_piece {l key : Str} (hb : ' ' ∈ l) :
    (splitOn ' ' l).getLastD [] = key ↔ (∃ pre, l = pre ++ ' ' :: key) ∧ ' ' ∉ key := by
  have fwd : ∀ {pre k : Str}, ' ' ∉ k → (splitOn ' ' (pre ++ ' ' :: k)).getLastD [] = k := by
    intro pre k hk
    unfold splitOn
    rw [splitP_append_sep (by simp), splitP_of_not_mem (s := k)]
    · simp
    · intro c hc
      simp only [beq_eq_false_iff_ne]
      rintro rfl
      exact hk hc
  obtain ⟨pre, k, rfl, hk⟩ : ∃ pre k, l = pre ++ ' ' :: k ∧ ' ' ∉ k := by
    have : ' ' ∈ l.reverse := by simpa using hb
    obtain ⟨a, b, h1, h2⟩ := List.eq_append_cons_of_mem this
    refine ⟨b.reverse, a.reverse, ?_, by simpa using h2⟩
    have := congrArg List.reverse h1
    simpa using this
  rw [fwd hk]
  constructor
  · rintro rfl; exact ⟨⟨pre, rfl⟩, hk⟩
  · rintro ⟨⟨pre', h1⟩, h2⟩
    have := fwd (pre := pre') h2
    rw [← h1, fwd hk] at this
    exact this

private theorem tableEntry_iff (l key : Str) (i j : Nat) : tableEntry (l, i) = some (key, j) ↔ AnnouncesRun l key ∧ i = j := by
  unfold tableEntry AnnouncesRun
  by_cases h : hasSub p!"print table" l = true
  · have hb : ' ' ∈ l := (hasSub_iff.1 h).subset (by simp)
    simp only [h, if_true]
    constructor
    · intro h2
      split at h2
      · simp at h2
      · rename_i h3
        simp only [Option.some.injEq, Prod.mk.injEq] at h2
        obtain ⟨h4, rfl⟩ := h2
        have h5 := (last_piece hb).1 h4
        rw [h4] at h3
        push Not at h3
        exact ⟨⟨hasSub_iff.1 h, h5.1, h5.2, h3.1, h3.2.1, h3.2.2⟩, rfl⟩
    · rintro ⟨⟨_, h1, h2, h3, h4, h5⟩, rfl⟩
      rw [(last_piece hb).2 ⟨h1, h2⟩, if_neg]
      push Not
      exact ⟨h3, h4, h5⟩
  · have := h
    rw [hasSub_iff] at this
    simp only [h, Bool.false_eq_true, if_false, reduceCtorEq, false_iff]
    rintro ⟨⟨h1, _⟩, _⟩
    exact this h1

/-- A table identifier is mapped to the last line that announces it; there are no other keys. -/
theorem C102_tables (lines : List Str) (key : Str) (i : Nat) :
    (getTableDict lines).get key = some i ↔
      (∃ l, lines[i]? = some l ∧ AnnouncesRun l key) ∧ ∀ j l, i < j → lines[j]? = some l → ¬ AnnouncesRun l key := by
  rw [tableDict_eq, Dict.get_foldl_filterMap]
  constructor
  · rintro ⟨a, ⟨l, i'⟩, b, hab, hg, hn⟩
    obtain ⟨h1, rfl⟩ := (tableEntry_iff l key i' i).1 hg
    have hl : lines.zipIdx[a.length]? = some (l, i') := by rw [hab]; simp
    rw [List.getElem?_zipIdx] at hl
    simp only [Option.map_eq_some_iff, Prod.mk.injEq, Nat.zero_add] at hl
    obtain ⟨x, hx, rfl, hi⟩ := hl
    have hi' : a.length = i' := by simpa using hi
    refine ⟨⟨x, by rw [← hi']; exact hx, h1⟩, ?_⟩
    intro j l' hj hl' han
    have hz : lines.zipIdx[j]? = some (l', j) := by rw [List.getElem?_zipIdx, hl']; simp
    have hmem : (l', j) ∈ b := by
      rw [hab, List.getElem?_append_right (by omega)] at hz
      obtain ⟨k, hk⟩ : ∃ k, j - a.length = k + 1 := ⟨j - a.length - 1, by omega⟩
      rw [hk, List.getElem?_cons_succ] at hz
      exact List.mem_of_getElem? hz
    exact hn _ hmem j ((tableEntry_iff l' key j j).2 ⟨han, rfl⟩)
  · rintro ⟨⟨l, hl, han⟩, hn⟩
    have hlt : i < lines.zipIdx.length := by
      rw [List.length_zipIdx]; exact (List.getElem?_eq_some_iff.1 hl).1
    have hz : lines.zipIdx[i]? = some (l, i) := by rw [List.getElem?_zipIdx, hl]; simp
    have hz' := (List.getElem?_eq_some_iff.1 hz).2
    refine ⟨lines.zipIdx.take i, (l, i), lines.zipIdx.drop (i + 1), ?_, (tableEntry_iff l key i i).2 ⟨han, rfl⟩, ?_⟩
    · rw [← hz', List.getElem_cons_drop, List.take_append_drop]
    · rintro ⟨l', j⟩ hmem v' hv
      obtain ⟨h1, rfl⟩ := (tableEntry_iff l' key j v').1 hv
      obtain ⟨k, hk⟩ := List.mem_iff_getElem?.1 hmem
      rw [List.getElem?_drop, List.getElem?_zipIdx] at hk
      simp only [Option.map_eq_some_iff, Prod.mk.injEq] at hk
      obtain ⟨x, hx, rfl, hj⟩ := hk
      have hj' : i + 1 + k = j := by simpa using hj
      rw [hj'] at hx
      exact hn j x (by omega) hx h1

example : getTableDict [p!"1cells      print table 60", p!"x", p!" print table 101", p!"print table 60", p!"print table 160"] =
    [(p!"60", 3), (p!"101", 2)] := by decide +kernel
example : AnnouncesRun p!"1cells      print table 60" p!"60" :=
  ⟨⟨p!"1cells      ", p!" 60", rfl⟩, ⟨p!"1cells      print table", rfl⟩, by decide, by decide, by decide, by decide⟩

/-! ### C105: date and version -/

private theorem date_of {l : Str} (hl : p!"1mcnp" <+: l) (d t : Str) :
    (getI (stringCleanAndSplit l) (-2) = some d ∧ getI (stringCleanAndSplit l) (-1) = some t) ↔
      ∃ ws, Spec.IsWords l (ws ++ [d, t]) := by
  have hne : splitWs l ≠ [] := by
    rw [ne_eq, splitWs_eq_nil_iff]
    intro h
    exact absurd (h '1' (hl.subset (by simp))) (by decide)
  unfold stringCleanAndSplit
  rw [splitOn_stringCleaner hne]
  simp only [isWords_iff]
  constructor
  · rintro ⟨h1, h2⟩
    have hlen : 2 ≤ (splitWs l).length := by
      by_contra hc
      unfold getI at h1
      rw [if_neg (by decide), if_neg (by simpa using hc)] at h1
      simp at h1
    obtain ⟨a, x, y, he⟩ := last_two _ hlen
    rw [he, getI_snd_last] at h1
    have : getI (a ++ [x, y]) (-1) = some y := by
      unfold getI
      rw [if_neg (by decide), if_pos (by simp)]
      simp
    rw [he, this] at h2
    simp only [Option.some.injEq] at h1 h2
    exact ⟨a, by rw [he, h1, h2]⟩
  · rintro ⟨a, he⟩
    rw [he, getI_snd_last]
    refine ⟨rfl, ?_⟩
    unfold getI
    rw [if_neg (by decide), if_pos (by simp)]
    simp

/-- `l` is the first line with "1mcnp" in front among the lines `i < bound`. -/
def FirstRunLine (lines : List Str) (bound : Nat) (l : Str) : Prop :=
  ∃ i < bound, lines[i]? = some l ∧ p!"1mcnp" <+: l ∧ ∀ j < i, ∀ l', lines[j]? = some l' → ¬ p!"1mcnp" <+: l'

private theorem runDate_of (lines : List Str) (b : Nat) (hb : (if lines.length > 101 then lines.take 100 else lines) = lines.take b)
    (d t : Str) : readRunDate lines = .ok (d, t) ↔ ∃ l ws, FirstRunLine lines b l ∧ Spec.IsWords l (ws ++ [d, t]) := by
  unfold readRunDate
  simp only [hb]
  simp only [ex_bind_ok, at', orErr_ok_iff, ex_pure, Except.ok.injEq, Prod.mk.injEq]
  have hget : ∀ i l, (lines.take b)[i]? = some l ↔ i < b ∧ lines[i]? = some l := by
    intro i l
    rw [List.getElem?_take]
    split
    · simp [*]
    · simp; omega
  constructor
  · rintro ⟨i, hi, l, hl, d', hd, t', ht, rfl, rfl⟩
    rw [findLine_prefix (show p!"1mcnp".length = 5 from rfl)] at hi
    obtain ⟨⟨l', hl', hp⟩, hn⟩ := hi
    rw [hl] at hl'
    simp only [Option.some.injEq] at hl'
    subst hl'
    obtain ⟨ws, hw⟩ := (date_of hp _ _).1 ⟨hd, ht⟩
    refine ⟨l, ws, ⟨i, ((hget i l).1 hl).1, ((hget i l).1 hl).2, hp, ?_⟩, hw⟩
    intro j hj l' hl' hp'
    exact hn j hj ⟨l', (hget j l').2 ⟨Nat.lt_trans hj ((hget i l).1 hl).1, hl'⟩, hp'⟩
  · rintro ⟨l, ws, ⟨i, hib, hl, hp, hn⟩, hw⟩
    obtain ⟨h1, h2⟩ := (date_of hp d t).2 ⟨ws, hw⟩
    refine ⟨i, ?_, l, (hget i l).2 ⟨hib, hl⟩, d, h1, t, h2, rfl, rfl⟩
    rw [findLine_prefix (show p!"1mcnp".length = 5 from rfl)]
    refine ⟨⟨l, (hget i l).2 ⟨hib, hl⟩, hp⟩, ?_⟩
    rintro j hj ⟨l', hl', hp'⟩
    exact hn j hj l' ((hget j l').1 hl').2 hp'

/-- Date and time of the run, for files that do not have exactly 101 lines. -/
theorem C105_run_date_partial (lines : List Str) (h : lines.length ≠ 101) (d t : Str) :
    readRunDate lines = .ok (d, t) ↔ ∃ l ws, FirstRunLine lines 100 l ∧ Spec.IsWords l (ws ++ [d, t]) := by
  apply runDate_of
  split
  · rfl
  · rw [List.take_of_length_le (by omega)]

/-- A file of exactly 101 lines is searched completely: the date is taken from a line behind the first hundred. -/
theorem C105_run_date_violated (pre : List Str) (hl : pre.length = 100) (hp : ∀ l ∈ pre, ¬ p!"1mcnp" <+: l) (d t last : Str)
    (ws : List Str) (hlast : p!"1mcnp" <+: last) (hw : Spec.IsWords last (ws ++ [d, t])) :
    readRunDate (pre ++ [last]) = .ok (d, t) ∧ ¬ ∃ l, FirstRunLine (pre ++ [last]) 100 l := by
  constructor
  · rw [runDate_of _ 101 (by rw [if_neg (by simp [hl]), List.take_of_length_le (by simp [hl])])]
    refine ⟨last, ws, ⟨100, by decide, ?_, hlast, ?_⟩, hw⟩
    · rw [List.getElem?_append_right (by omega)]; simp [hl]
    · intro j hj l' hl'
      rw [List.getElem?_append_left (by omega)] at hl'
      exact hp l' (List.mem_of_getElem? hl')
  · rintro ⟨l, i, hi, hl', hpl, _⟩
    rw [List.getElem?_append_left (by omega)] at hl'
    exact hp l (List.mem_of_getElem? hl') hpl

/-- The version is the text between the first and the second "=" of a version line, without surrounding white space;
    `read_version` returns on every input. -/
theorem C105_version (lines : List Str) (v : Str) :
    readVersion lines = some v ↔ ∃ l rest a b w, lines = l :: rest ∧ p!"          Code Name & Version" <+: l ∧
      l = a ++ '=' :: b ∧ '=' ∉ a ∧ FirstPiece '=' b w ∧ v = strip w := by
  unfold readVersion
  cases lines with
  | nil => simp
  | cons l rest =>
    simp only [take_eq_prefix (show p!"          Code Name & Version".length = 29 from rfl)]
    by_cases h : p!"          Code Name & Version" <+: l
    · rw [if_pos h, Option.map_eq_some_iff]
      constructor
      · rintro ⟨w, hw, rfl⟩
        obtain ⟨a, b, h1, h2, h3⟩ := splitOn_one.1 hw
        exact ⟨l, rest, a, b, w, rfl, h, h1, h2, h3, rfl⟩
      · rintro ⟨_, _, a, b, w, heq, _, h1, h2, h3, rfl⟩
        simp only [List.cons.injEq] at heq
        obtain ⟨rfl, rfl⟩ := heq
        exact ⟨w, splitOn_one.2 ⟨a, b, h1, h2, h3⟩, rfl⟩
    · rw [if_neg h]
      simp only [reduceCtorEq, false_iff]
      rintro ⟨_, _, _, _, _, heq, hp, _⟩
      simp only [List.cons.injEq] at heq
      rw [← heq.1] at hp
      exact h hp

example : readRunDate [p!"x", p!"1mcnp     version 6     ld=05/08/13                     10/30/19 14:54:03 "] =
    .ok (p!"10/30/19", p!"14:54:03") := by decide +kernel
example : readVersion [p!"          Code Name & Version = MCNP_6.20, 6.2.0"] = some p!"MCNP_6.20, 6.2.0" := by decide +kernel

end Props
