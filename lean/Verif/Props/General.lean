/- Violations stated for all inputs of their kind, beside the witnesses given with the properties (C07-C15, C23, C26, C37, C49, C50, C54,
   C55, C68, C79, C136, C160, C171, C172, C179). -/
import Verif.Props.McnpWrap
import Verif.Props.McnpInput4
import Verif.Props.MeshtalAnalysis
import Verif.Props.FispactAnalysis
import Verif.Props.FispactPlots
import Verif.Props.FispactOutput
import Verif.Props.FluxesWriter
import Verif.Props.Readers
import Verif.Props.Misc

set_option linter.unusedSectionVars false
set_option linter.unusedSimpArgs false

namespace Props
open Py

section lists
open NeutUtilities

/-- Going down first elements ends in an empty list. -/
inductive EndsEmpty {α : Type*} : Nested α → Prop
  | nil : EndsEmpty (.list [])
  | cons {x xs} : EndsEmpty x → EndsEmpty (.list (x :: xs))

/-- C07 is violated on every list that ends in an empty list when going down first elements: the loop never ends. -/
theorem C07_empty_violated {α : Type*} (lst : Nested α) (h : EndsEmpty lst) :
    (∀ n, dimLoop n lst = none) ∧ ¬ ∃ ds, GetListDimensions lst ds := by
  have key : ∀ n, dimLoop n lst = none := by
    induction h with
    | nil =>
      intro n
      induction n with
      | zero => rfl
      | succ n ih => simp [dimLoop, ih]
    | @cons x xs _ ih =>
      intro n
      cases n with
      | zero => rfl
      | succ n => simp [dimLoop, ih n]
  refine ⟨key, ?_⟩
  rintro ⟨ds, hd⟩
  cases h with
  | nil => obtain ⟨n, hn⟩ := hd; rw [key] at hn; cases hn
  | cons _ => obtain ⟨n, hn⟩ := hd; rw [key] at hn; cases hn

/-- C07: there is no third case: either the descent ends at a value and the call returns, or it ends in an empty list. -/
theorem C07_cases {α : Type*} (lst : Nested α) : (∃ ds, GetListDimensions lst ds) ∨ EndsEmpty lst := by
  have key : ∀ n (l : Nested α), sizeOf l ≤ n → (∃ ds, FirstLengths l ds) ∨ EndsEmpty l := by
    intro n
    induction n with
    | zero =>
      intro l hl
      cases l with
      | atom a => exact .inl ⟨[], .atom a⟩
      | list xs =>
        have : sizeOf (Nested.list xs) = 1 + sizeOf xs := by simp
        omega
    | succ n ih =>
      intro l hl
      cases l with
      | atom a => exact .inl ⟨[], .atom a⟩
      | list xs =>
        cases xs with
        | nil => exact .inr .nil
        | cons x xs =>
          have h1 : sizeOf (Nested.list (x :: xs)) = 1 + sizeOf (x :: xs) := by simp only [Nested.list.sizeOf_spec]
          have h2 : sizeOf (x :: xs) = 1 + sizeOf x + sizeOf xs := by simp only [List.cons.sizeOf_spec]
          rcases ih x (by omega) with ⟨ds, hd⟩ | he
          · exact .inl ⟨_, .cons hd⟩
          · exact .inr (.cons he)
  rcases key _ lst le_rfl with ⟨ds, hd⟩ | he
  · exact .inl ⟨ds, (C07_dimensions_partial lst ds).2 hd⟩
  · exact .inr he

example : EndsEmpty (.list [.list [], .atom 3] : Nested Int) := .cons .nil

private theorem replaceAux_mem {old new : Str} : ∀ (k : Nat) (s : Str) (c : Char), c ∈ replaceAux old new k s → c ∈ new ∨ c ∈ s := by
  intro k s
  fun_induction replaceAux old new k s with
  | case1 => intro c hc; simp at hc
  | case2 _ _ _ ih => intro c hc; rcases ih c hc with h | h <;> simp [h]
  | case3 _ _ _ ih =>
    intro c hc
    rcases List.mem_append.1 hc with h | h
    · exact .inl h
    · rcases ih c h with h | h <;> simp [h]
  | case4 _ _ _ ih =>
    intro c hc
    rcases List.mem_cons.1 hc with h | h
    · simp [h]
    · rcases ih c h with h | h <;> simp [h]

/-- C08 is violated on every file that contains a carriage return: unless the new text brings in a carriage return itself, the content is
    changed, whether the old text occurs or not. -/
theorem C08_carriage_return_violated (fs : FS) (fname content old new : Str) (hne : old ≠ [])
    (h : fs.node fname = some (.file content)) (hw : fs.canWrite fname = true) (hr : '\r' ∈ content) (hn : '\r' ∉ new) :
    ∃ out, textReplace fname old new fs = (.ok (), fs.put fname (.file out)) ∧ '\r' ∉ out ∧ out ≠ content := by
  have hno : '\r' ∉ replaceAux old new 0 (univNL content) := by
    intro hc
    rcases replaceAux_mem _ _ _ hc with h | h
    · exact hn h
    · exact not_mem_univNL _ h
  refine ⟨replaceAux old new 0 (univNL content), ?_, hno, fun he => hno (by rw [he]; exact hr)⟩
  unfold textReplace
  rw [PyM.bind_ok (a := univNL content) (fs' := fs) (by simp [readText, h]), replace_of_ne_nil hne]
  simp [writeText, hw]

example : ∃ content : Str, '\r' ∈ content ∧ (exFS content).node p!"f" = some (.file content) ∧ (exFS content).canWrite p!"f" = true :=
  ⟨p!"a\r\n", by decide, by decide, by decide⟩

end lists

section wrapping
open OutputUtilities McnpInput Spec.Mcnp

/-- C13 is violated by every prefix that is longer than the width, whatever the tokens. -/
theorem C13_prefix_violated (pre cont : Str) (tokens : List Str) (maxLen : Int) (out : List Str)
    (h : wrapTokens pre tokens maxLen cont = .ok out) (hp : maxLen < ((rstrip pre).length : Int)) (hne : rstrip pre ≠ []) :
    ∃ l ∈ out, maxLen < (l.length : Int) := by
  obtain ⟨_, h2, _⟩ := C14_shape pre cont tokens maxLen out h
  cases out with
  | nil =>
    obtain ⟨L, C, hL, hout⟩ := wrapTokens_ok h
    obtain ⟨E, hE, -, hhead⟩ := wrapLoop_shape tokens _ _ _ _ hL
    rcases hout with hout | ⟨hout, hC⟩
    · simp at hout
    · subst hout
      have hE' : E = [] := by simpa using hE.symm
      subst hE'
      have := hhead (rstrip C) (by simp)
      rw [hC, rstrip_append_blank (by simp [isSpace]), List.prefix_nil] at this
      exact absurd this hne
  | cons l ls =>
    refine ⟨l, by simp, ?_⟩
    have := (h2 l (by simp)).length_le
    omega

/-- The continuation text with the blank that is put behind it. -/
def contText (cont : Str) : Str := if cont ≠ [] ∧ cont.getLast? ≠ some ' ' then cont ++ [' '] else cont

private theorem contPrefix_eq (cont : Str) : contPrefix cont = contText cont := by
  unfold contPrefix contText
  have : (!cont.isEmpty && !endsWith cont [' ']) = true ↔ (cont ≠ [] ∧ cont.getLast? ≠ some ' ') := by
    rw [Bool.and_eq_true, Bool.not_eq_true', Bool.not_eq_true', ← Bool.not_eq_true (endsWith _ _), endsWith_iff,
      List.isEmpty_eq_false_iff, ne_eq (a := cont.getLast?), List.getLast?_eq_some_iff]
    constructor
    · rintro ⟨a, b⟩; exact ⟨a, fun ⟨t, ht⟩ => b ⟨t, ht.symm⟩⟩
    · rintro ⟨a, b⟩; exact ⟨a, fun ⟨t, ht⟩ => b ⟨t, ht.symm⟩⟩
  by_cases hc : cont ≠ [] ∧ cont.getLast? ≠ some ' '
  · rw [if_pos (this.2 hc), if_pos hc]
  · rw [if_neg (fun h' => hc (this.1 h')), if_neg hc]

private theorem loop_long {maxLen : Int} {cont t : Str} (ht : strip t ≠ []) (m : Nat)
    (hm : maxLen < (m : Int) + (strip t).length + 1) (hmc : m ≤ cont.length + 1) : ∀ (tokens lines : List Str) (cur : Str) (L : List Str) (C : Str),
      t ∈ tokens → m ≤ cur.length → wrapLoop maxLen cont lines cur tokens = .ok (L, C) →
      ∃ l ∈ L ++ [rstrip C], cont ++ strip t <+: l := by
  intro tokens
  induction tokens with
  | nil => intro _ _ _ _ h; simp at h
  | cons s ts ih =>
    intro lines cur L C hmem hcur h
    have hlong : ∀ tok : Str, tok ≠ [] → m ≤ (cont ++ tok).length := by
      intro tok htok
      have := List.length_pos_iff.2 htok
      simp
      omega
    rw [wrapLoop] at h
    by_cases h0 : strip s = []
    · rw [if_pos h0] at h
      rcases List.mem_cons.1 hmem with rfl | hmem
      · exact absurd h0 ht
      · exact ih _ _ _ _ hmem hcur h
    · rw [if_neg h0] at h
      by_cases h1 : ((strip s).length : Int) > maxLen
      · rw [if_pos h1] at h; cases h
      · rw [if_neg h1] at h
        by_cases h2 : (cur.length : Int) + (strip s).length + 1 > maxLen
        · rw [if_pos h2] at h
          rcases List.mem_cons.1 hmem with rfl | hmem
          · obtain ⟨E, hE, -, hhead⟩ := wrapLoop_shape ts _ _ _ _ h
            rw [rstrip_append_strip ht] at hhead
            cases E with
            | nil => exact ⟨rstrip C, by simp, hhead _ (by simp)⟩
            | cons e E => exact ⟨e, by simp [hE], hhead _ (by simp)⟩
          · exact ih _ _ _ _ hmem (hlong _ h0) h
        · rw [if_neg h2] at h
          rcases List.mem_cons.1 hmem with rfl | hmem
          · omega
          · by_cases h3 : endsWith cur [' '] = true
            · rw [if_pos h3] at h
              exact ih _ _ _ _ hmem (by simp; omega) h
            · rw [if_neg h3] at h
              exact ih _ _ _ _ hmem (by simp; omega) h

/-- C13 is violated by every token that fits on a line of its own, but neither behind the continuation text nor behind the prefix. -/
theorem C13_token_violated (pre cont t : Str) (tokens : List Str) (maxLen : Int) (out : List Str)
    (h : wrapTokens pre tokens maxLen cont = .ok out) (ht : t ∈ tokens) (hb : ¬ Spec.Blank t)
    (hc : maxLen < ((contText cont).length : Int) + (strip t).length) (hp : maxLen < (pre.length : Int) + 1 + (strip t).length + 1) :
    ∃ l ∈ out, maxLen < (l.length : Int) := by
  have hts : strip t ≠ [] := fun h0 => hb (strip_eq_nil_iff.1 h0)
  obtain ⟨L, C, hL, hout⟩ := wrapTokens_ok h
  rw [contPrefix_eq] at hL
  obtain ⟨l, hl, hpre⟩ := loop_long hts (min (pre.length + 1) ((contText cont).length + 1)) (by omega) (by omega) tokens _ _ _ _ ht
    (by simp) hL
  have hlen := hpre.length_le
  simp only [List.length_append] at hlen
  refine ⟨l, ?_, by omega⟩
  rcases hout with rfl | ⟨rfl, hC⟩
  · exact hl
  · rcases List.mem_append.1 hl with hl | hl
    · exact hl
    · simp only [List.mem_singleton] at hl
      subst hl
      rw [hC] at hlen
      have := List.length_pos_iff.2 hts
      simp only [List.length_nil] at hlen
      omega

/-- C13: with a prefix at least as long as the continuation text these are all: a line is too long exactly if the prefix is, or some token
    does not fit behind the continuation text. -/
theorem C13_exact (pre cont : Str) (tokens : List Str) (maxLen : Int) (out : List Str)
    (h : wrapTokens pre tokens maxLen cont = .ok out) (h0 : 0 ≤ maxLen) (hlen : (contText cont).length ≤ pre.length + 1) :
    (∃ l ∈ out, maxLen < (l.length : Int)) ↔
      maxLen < ((rstrip pre).length : Int) ∨ ∃ t ∈ tokens, ¬ Spec.Blank t ∧ maxLen < ((contText cont).length : Int) + (strip t).length := by
  constructor
  · rintro ⟨l, hl, hlong⟩
    by_contra hcon
    push Not at hcon
    obtain ⟨hc1, hc2⟩ := hcon
    obtain ⟨L, C, hL, hout⟩ := wrapTokens_ok h
    rw [contPrefix_eq] at hL
    have := wrapLoop_inv (maxLen := maxLen) (cont := contText cont) (fun l => (l.length : Int) ≤ maxLen) tokens [] (pre ++ [' ']) L C
      (by simp) (by rw [rstrip_append_blank (by simp [isSpace])]; exact hc1)
      (fun t ht hts => by
        have := hc2 t ht (fun hb => hts (strip_eq_nil_iff.2 hb))
        simp only [List.length_append]; push_cast; exact this)
      (fun t ht hts c _ hfit => by
        split <;> simp only [List.length_append, List.length_cons, List.length_nil] <;> push_cast <;> omega) hL
    obtain ⟨i1, i2⟩ := this
    rcases hout with rfl | ⟨rfl, _⟩
    · rcases List.mem_append.1 hl with hl | hl
      · have := i1 l hl; omega
      · simp only [List.mem_singleton] at hl; subst hl; omega
    · have := i1 l hl; omega
  · rintro (hp | ⟨t, ht, hb, hc⟩)
    · refine C13_prefix_violated pre cont tokens maxLen out h hp ?_
      intro h'
      rw [h'] at hp
      simp at hp
      omega
    · exact C13_token_violated pre cont t tokens maxLen out h ht hb hc (by omega)

example : wrapTokens p!"sdef" [p!"aaaa", p!"b"] 8 p!"     " = .ok [p!"sdef", p!"     aaaa", p!"     b"] := by decide

/-- C15 is violated by every card whose first token does not fit behind the name: the first line is the name alone, and the reader does
    not find the card. -/
theorem C15_first_token_violated (card : Str) (blanks rest : List Str) (t : Str) (maxLen : Int) (out : List Str) (hp : Spec.IsWord card)
    (hb : ∀ s ∈ blanks, Spec.Blank s) (ht : ¬ Spec.Blank t)
    (hfit : maxLen < (card.length : Int) + 1 + (strip t).length + 1)
    (h : wrapTokens card (blanks ++ t :: rest) maxLen p!"     " = .ok out) : out.head? = some card ∧ getCardLines out card = [] := by
  have hts : strip t ≠ [] := fun h0 => ht (strip_eq_nil_iff.1 h0)
  have hcard : rstrip (card ++ [' ']) = card := by
    rw [rstrip_append_blank (by simp [isSpace])]
    exact rstrip_eq_self_iff.2 (fun hne => by
      have := hp.2 _ (List.getLast_mem hne)
      exact this)
  have hhead : out.head? = some card := by
    obtain ⟨L, C, hL, hout⟩ := wrapTokens_ok h
    have hskip : ∀ (bs : List Str), (∀ s ∈ bs, Spec.Blank s) → ∀ lines cur,
        wrapLoop maxLen (contPrefix p!"     ") lines cur (bs ++ t :: rest) = wrapLoop maxLen (contPrefix p!"     ") lines cur (t :: rest) := by
      intro bs
      induction bs with
      | nil => intro _ _ _; rfl
      | cons b bs ih =>
        intro hb lines cur
        rw [List.cons_append, wrapLoop, if_pos (strip_eq_nil_iff.2 (hb b (by simp)))]
        exact ih (fun s hs => hb s (by simp [hs])) lines cur
    rw [hskip blanks hb, wrapLoop, if_neg hts] at hL
    by_cases h1 : ((strip t).length : Int) > maxLen
    · rw [if_pos h1] at hL; cases hL
    · rw [if_neg h1, if_pos (by simp; omega), List.nil_append, hcard] at hL
      obtain ⟨E, hE, -⟩ := wrapLoop_shape rest _ _ _ _ hL
      rcases hout with rfl | ⟨rfl, _⟩ <;> simp [hE]
  refine ⟨hhead, ?_⟩
  obtain ⟨first, body, rfl, -, hcont⟩ := C15_shape card _ maxLen out hp h
  simp only [List.head?_cons, Option.some.injEq] at hhead
  subst hhead
  have hblank : first.head? ≠ some ' ' := by
    intro h'
    have := hp.2 ' ' (List.mem_of_mem_head? h')
    simp [isSpace] at this
  rw [C81_absent _ _ hp.1 hblank]
  intro l hl
  rintro ⟨name, c, r, rfl, hn, -⟩
  have hlen : name.length = first.length := by
    have := congrArg List.length hn
    simpa [lower] using this
  rcases List.mem_cons.1 hl with h' | h'
  · have := congrArg List.length h'
    simp at this
    omega
  · obtain ⟨r', hr'⟩ := hcont _ h'
    cases first with
    | nil => exact hp.1 rfl
    | cons f fs =>
      cases name with
      | nil => simp at hlen
      | cons n ns =>
        simp only [List.cons_append, List.cons.injEq] at hr'
        obtain ⟨rfl, -⟩ := hr'
        simp only [lower, List.map_cons, List.cons.injEq] at hn
        have hf : f = ' ' := (toLower_eq_low (by decide)).1 hn.1.symm
        exact hblank (by simp [hf])

example : Spec.IsWord p!"sdef" ∧ ¬ Spec.Blank p!"aaaa" ∧ (8 : Int) < (p!"sdef").length + 1 + (strip p!"aaaa").length + 1 ∧
    wrapTokens p!"sdef" ([] ++ p!"aaaa" :: [p!"b"]) 8 p!"     " = .ok [p!"sdef", p!"     aaaa", p!"     b"] := by
  refine ⟨⟨by decide, by decide⟩, by unfold Spec.Blank; decide, by decide, by decide⟩

end wrapping

section readers

open Printlib in
/-- C23 is violated by every file without the run time line and without the ` FD ` line, such as an empty file or a file of another kind:
    the exception is UnboundLocalError. -/
theorem C23_other_file_violated {F : Type} (flt : Str → Option F) (fs : FS) (fpath content : Str) (h : fs.node fpath = some (.file content))
    (hr : ∀ l ∈ keepLines (univNL content), ¬ p!"fispact run time" <:+: l ∧ ¬ p!" FD " <:+: l) :
    (read flt fpath fs).1 = .error .UnboundLocalError := by
  have key : ∀ (ls : List Str) (s : State F), s.inDiscrete = false → (∀ l ∈ ls, ¬ p!"fispact run time" <:+: l ∧ ¬ p!" FD " <:+: l) →
      scan flt s ls = .ok none := by
    intro ls
    induction ls with
    | nil => intro s _ _; rfl
    | cons l ls ih =>
      intro s hs hl
      obtain ⟨h1, h2⟩ := hl l (by simp)
      have hrest : ∀ l ∈ ls, ¬ p!"fispact run time" <:+: l ∧ ¬ p!" FD " <:+: l := fun l' h' => hl l' (by simp [h'])
      rw [scan, hasSub_false_iff.2 h1, hs, hasSub_false_iff.2 h2]
      simp only [Bool.false_eq_true, if_false]
      split
      · exact ih s hs hrest
      · split
        · exact ih _ rfl hrest
        · exact ih s hs hrest
  unfold Printlib.read
  rw [h]
  simp only
  rw [key _ _ rfl hr]

example : ∀ l ∈ keepLines (univNL p!"a\nb\n"), ¬ p!"fispact run time" <:+: l ∧ ¬ p!" FD " <:+: l := by
  intro l hl
  rw [← hasSub_false_iff, ← hasSub_false_iff]
  revert l
  decide

open Xsdir in
/-- C26 is violated by every path with a capital letter and by every path with a second `=`: another path is returned. -/
theorem C26_path_violated (pre post : List Str) (a b : Str) (hpre : ∀ l ∈ pre, ¬ IsDatapath l) (hl : IsDatapath (a ++ '=' :: b)) (ha : '=' ∉ a)
    (hb : (∃ c ∈ strip b, c.toLower ≠ c) ∨ '=' ∈ b) :
    ∃ r, processDatapath (pre ++ (a ++ '=' :: b) :: post) = .ok (some r) ∧ r ≠ strip b := by
  have h1 := ((C26_datapath_partial (pre ++ (a ++ '=' :: b) :: post)).2 pre _ post rfl hpre hl).1 (lower a) (lower b)
    (by simp [lower]) (fun h => ha (mem_of_mem_lower (by decide) h))
  refine ⟨_, h1, ?_⟩
  intro he
  have hsub : ∀ c ∈ strip ((lower b).takeWhile (· ≠ '=')), c ∈ (lower b).takeWhile (· ≠ '=') := by
    intro c hc
    obtain ⟨x, y, hxy, _, _⟩ := strip_decomp ((lower b).takeWhile (· ≠ '='))
    rw [hxy]
    exact List.mem_append_left _ (List.mem_append_right _ hc)
  rcases hb with ⟨c, hc, hcl⟩ | hb
  · rw [← he] at hc
    have := List.takeWhile_subset _ (hsub c hc)
    obtain ⟨d, -, rfl⟩ := List.mem_map.1 this
    exact hcl (toLower_toLower d)
  · have hs : '=' ∈ strip b := by
      obtain ⟨x, y, hxy, hx, hy⟩ := strip_decomp b
      rw [hxy] at hb
      simp only [List.mem_append] at hb
      rcases hb with (hb | hb) | hb
      · exact absurd (hx _ hb) (by decide)
      · exact hb
      · exact absurd (hy _ hb) (by decide)
    rw [← he] at hs
    have := List.mem_takeWhile_imp (hsub _ hs)
    simp at this

example : ∃ c ∈ strip p!" /Data", c.toLower ≠ c := ⟨'D', by decide, by decide⟩

end readers

section numbers
variable {K : Type} [Field K] [LinearOrder K] [IsStrictOrderedRing K]

/-- C37 is violated by every spectrum whose values are not ascending. -/
theorem C37_not_ascending_violated (spect : List K) (h : ¬ spect.Pairwise (· ≤ ·)) :
    FluxesWriter.convertMcnpSpect (some spect) = .error .ValueError :=
  ((C37_reverse_partial spect).2.2 .ValueError).2 ⟨rfl, .inr h⟩

example : ¬ ([3, 1] : List ℚ).Pairwise (· ≤ ·) := by decide +kernel

/-- C49 is violated for every inventory: the name of the limits file makes no difference. -/
theorem C49_path_violated (onEmpty : Except Err Unit) (readOOS : Str → Except Err (FispactAnalysis.Limits K)) (path path' : Str)
    (steps : List (Nat × FispactAnalysis.Arg K)) :
    FispactAnalysis.findWhenOos onEmpty readOOS path steps = FispactAnalysis.findWhenOos onEmpty readOOS path' steps := by
  induction steps with
  | nil => rfl
  | cons s steps ih =>
    obtain ⟨n, inv⟩ := s
    rw [FispactAnalysis.findWhenOos, FispactAnalysis.findWhenOos, ih]

open FispactAnalysis in
/-- C50, exactly: the chart is refused with IndexError if and only if a nuclide in view has Z at least 118 or A at least 294. -/
theorem C50_error_violated (num : AVal → Nat) (get : Row K → K) (inv : List (Row K)) (ar zr : Nat × Nat) (e : Err) :
    nucChart num get inv (some ar) (some zr) = .error e ↔
      e = .IndexError ∧ ∃ r ∈ inv, ∃ a z, Shows num r a z ∧ ar.1 ≤ a ∧ a < ar.2 ∧ zr.1 ≤ z ∧ z < zr.2 ∧ (294 ≤ a ∨ 118 ≤ z) := by
  unfold nucChart
  simp only [Option.getD_some]
  generalize (fun _ _ => 0 : Chart K) = d0
  induction inv generalizing d0 with
  | nil => simp [pure, Except.pure]
  | cons r rs ih =>
    rw [List.foldlM_cons]
    have hstep : ∀ (P : Prop), (¬ ∃ a z, Shows num r a z ∧ ar.1 ≤ a ∧ a < ar.2 ∧ zr.1 ≤ z ∧ z < zr.2 ∧ (294 ≤ a ∨ 118 ≤ z)) →
        (P ↔ e = .IndexError ∧ ∃ r ∈ rs, ∃ a z, Shows num r a z ∧ ar.1 ≤ a ∧ a < ar.2 ∧ zr.1 ≤ z ∧ z < zr.2 ∧ (294 ≤ a ∨ 118 ≤ z)) →
        (P ↔ e = .IndexError ∧ ∃ r' ∈ r :: rs, ∃ a z, Shows num r' a z ∧ ar.1 ≤ a ∧ a < ar.2 ∧ zr.1 ≤ z ∧ z < zr.2 ∧ (294 ≤ a ∨ 118 ≤ z)) := by
      intro P hno hP
      rw [hP]
      simp only [List.exists_mem_cons_iff, hno, false_or]
    cases hel : Constants.zDict.get r.element with
    | none =>
      refine hstep _ ?_ (ih d0)
      rintro ⟨a, z, ⟨-, hz⟩, -⟩
      rw [hel] at hz; cases hz
    | some z =>
      simp only
      by_cases hv : ar.1 ≤ num r.a ∧ num r.a < ar.2 ∧ zr.1 ≤ z ∧ z < zr.2
      · rw [if_pos hv]
        by_cases hb : num r.a < 294 ∧ z < 118
        · rw [if_pos hb]
          refine hstep _ ?_ (ih _)
          rintro ⟨a, z', ⟨rfl, hz⟩, -, -, -, -, h⟩
          rw [hel] at hz; cases hz
          omega
        · rw [if_neg hb]
          constructor
          · intro h
            cases h
            exact ⟨rfl, r, by simp, num r.a, z, ⟨rfl, hel⟩, hv.1, hv.2.1, hv.2.2.1, hv.2.2.2, by omega⟩
          · rintro ⟨rfl, -⟩; rfl
      · rw [if_neg hv]
        refine hstep _ ?_ (ih d0)
        rintro ⟨a, z', ⟨rfl, hz⟩, h1, h2, h3, h4, -⟩
        rw [hel] at hz; cases hz
        exact hv ⟨h1, h2, h3, h4⟩

open FispactAnalysis in
/-- C50 is violated for every inventory with oganesson: the default view shows nothing of it. -/
theorem C50_oganesson_violated (num : AVal → Nat) (get : Row K → K) (inv : List (Row K)) :
    Constants.zDict.get p!"Og" = some 118 ∧ ∃ d, nucChart num get inv none none = .ok d ∧ ∀ a, d a 118 = 0 := by
  refine ⟨by decide, ?_⟩
  obtain ⟨d, hd, h⟩ := C50_chart_partial num get inv (0, 294) (0, 118) (by simp) (by simp)
  exact ⟨d, hd, fun a => by rw [h a 118, if_neg (by simp)]⟩

end numbers

section meshes
open Meshtal
variable {K : Type} [Field K] [LinearOrder K] [IsStrictOrderedRing K] [FloorRing K]

/-- C55 is violated for every table: a request for 0 is no request. -/
theorem C55_zero_violated (f : Frame K) (v : Option K) :
    filterEnergyTime f (some 0) v = filterEnergyTime f none v ∧ filterEnergyTime f none (some 0) = .ok f := by
  constructor
  · unfold filterEnergyTime
    simp only [filterOne, if_true]
  · change filterOne .t6 (some 0) f = _
    simp only [filterOne, if_true]

/-- C54 is violated by every mesh with two neighbouring intervals of different widths: some points of the wider one are nearer to the middle
    of the other, and a value at such a point is never taken from the voxels the point lies in. Stated for x; here the wider interval
    `(b, c)` follows the narrower one `(a, b)`. -/
theorem C54_unequal_violated (m : Mesh K (Frame K)) (a b c : K) (hab : a < b) (hw : b - a < c - b) (h1 : (a + b) / 2 ∈ m.xM) :
    ∃ x, b < x ∧ x < c ∧ ∀ y z vals, pickPoint x y z m none none = .ok vals →
      ∃ rows : List (Nat × MRow K), rows.Sublist m.data.rows ∧ vals = rows.map (fun r => r.2.value) ∧ ∀ r ∈ rows, r.2.x ≠ some ((b + c) / 2) := by
  refine ⟨(b + (a + 2 * b + c) / 4) / 2, by linarith, by linarith, ?_⟩
  intro y z vals h
  unfold pickPoint at h
  simp only [ex_bind_ok] at h
  obtain ⟨x', hx', y', hy', z', hz', f, hf, hv⟩ := h
  have hf' : f = ((m.data.keep (fun r => decide (r.x = some x'))).keep (fun r => decide (r.y = some y'))).keep
      (fun r => decide (r.z = some z')) := by
    have : (.ok _ : Except Err (Frame K)) = .ok f := hf
    injection this with this
    exact this.symm
  refine ⟨f.rows, ?_, ?_, ?_⟩
  · rw [hf']
    simp only [keep_rows, List.filter_filter]
    exact List.filter_sublist
  · have : (.ok _ : Except Err (List (Option K))) = .ok vals := hv
    injection this with this
    exact this.symm
  · intro r hr hx
    rw [hf'] at hr
    simp only [keep_rows, List.mem_filter, decide_eq_true_eq] at hr
    have hxx : x' = (b + c) / 2 := by
      have := hr.1.1.2
      rw [hx] at this
      injection this with this
      exact this.symm
    have hne : m.xM ≠ [] := by intro h0; rw [h0] at h1; simp at h1
    obtain ⟨j, r', hr', hj, hmin, _⟩ := (C53_nearest _ m.xM).1 hne
    rw [hx'] at hr'
    injection hr' with hr'
    subst hr'
    have := hmin _ h1
    rw [hxx, abs_of_nonneg (by linarith), abs_of_nonpos (by linarith)] at this
    linarith

/-- The same with the wider interval `(a, b)` before the narrower one. -/
theorem C54_unequal_before_violated (m : Mesh K (Frame K)) (a b c : K) (hbc : b < c) (hw : c - b < b - a) (h1 : (b + c) / 2 ∈ m.xM) :
    ∃ x, a < x ∧ x < b ∧ ∀ y z vals, pickPoint x y z m none none = .ok vals →
      ∃ rows : List (Nat × MRow K), rows.Sublist m.data.rows ∧ vals = rows.map (fun r => r.2.value) ∧ ∀ r ∈ rows, r.2.x ≠ some ((a + b) / 2) := by
  refine ⟨(b + (a + 2 * b + c) / 4) / 2, by linarith, by linarith, ?_⟩
  intro y z vals h
  unfold pickPoint at h
  simp only [ex_bind_ok] at h
  obtain ⟨x', hx', y', hy', z', hz', f, hf, hv⟩ := h
  have hf' : f = ((m.data.keep (fun r => decide (r.x = some x'))).keep (fun r => decide (r.y = some y'))).keep
      (fun r => decide (r.z = some z')) := by
    have : (.ok _ : Except Err (Frame K)) = .ok f := hf
    injection this with this
    exact this.symm
  refine ⟨f.rows, ?_, ?_, ?_⟩
  · rw [hf']
    simp only [keep_rows, List.filter_filter]
    exact List.filter_sublist
  · have : (.ok _ : Except Err (List (Option K))) = .ok vals := hv
    injection this with this
    exact this.symm
  · intro r hr hx
    rw [hf'] at hr
    simp only [keep_rows, List.mem_filter, decide_eq_true_eq] at hr
    have hxx : x' = (a + b) / 2 := by
      have := hr.1.1.2
      rw [hx] at this
      injection this with this
      exact this.symm
    have hne : m.xM ≠ [] := by intro h0; rw [h0] at h1; simp at h1
    obtain ⟨j, r', hr', hj, hmin, _⟩ := (C53_nearest _ m.xM).1 hne
    rw [hx'] at hr'
    injection hr' with hr'
    subst hr'
    have := hmin _ h1
    rw [hxx, abs_of_nonpos (by linarith), abs_of_nonneg (by linarith)] at this
    linarith

example : (0 : ℚ) < 1 ∧ (1 : ℚ) - 0 < 10 - 1 ∧ ((0 : ℚ) + 1) / 2 ∈ exMesh.xM := by
  refine ⟨by norm_num, by norm_num, ?_⟩
  simp [exMesh]

end meshes

section blocks
open McnpInput Spec.Mcnp

/-- C68 is violated by every file with the start of the summary and without a mass line. -/
theorem C68_all_violated (data : List Str) (f : Bool) (h1 : summaryBanner f ∈ data) (h2 : ∀ l ∈ data, ¬ p!"0 Mass" <:+: l) :
    FispactOutput.findSummaryBlock data f = .error .StopIteration :=
  ((C68_summary_block_partial data f).2 _).2 (.inr ⟨rfl, h1, h2⟩)

/-- C79 is violated by every line of exactly 80 characters without a comment: it is reported. -/
theorem C79_eighty_violated (lines : List Str) (i : Nat) (l : Str) (hi : lines[i]? = some l) (hl : l.length = 80) (hc : NoComment l) :
    ∃ L, longLineIndex lines = some L ∧ i ∈ L := by
  obtain ⟨h1, h2⟩ := C79_reports_from_80 lines
  cases h : longLineIndex lines with
  | none => exact absurd ⟨hl.ge, hc⟩ (h1.1 h l (List.mem_of_getElem? hi))
  | some L => exact ⟨L, rfl, ((h2 L h).2 i).2 ⟨l, hi, hl.ge, hc⟩⟩

/-- A comment line that is the letter alone. -/
def BareComment (l : Str) : Prop := l = ['c'] ∨ l = ['C']

/-- C136 is violated by every card with such a line: nothing behind it is returned. -/
theorem C136_bare_violated (pre rest : List Str) (card first cm : Str) (b1 : List Str) (hne : card ≠ []) (hb : card.head? ≠ some ' ')
    (hcm : BareComment cm) (hpre : ∀ l ∈ pre, ¬ CardHead card l) (hf : CardHead card first) (hbody : ∀ l ∈ b1, Cont l ∨ Comment l ∨ l = []) :
    getCardLines (pre ++ first :: (b1 ++ cm :: rest)) card = cardText first b1 := by
  refine C81_card_lines _ card first b1 hne hb ⟨pre, cm :: rest, rfl, hpre, hf, hbody, ?_⟩
  intro l hl
  simp only [List.head?_cons, Option.mem_def, Option.some.injEq] at hl
  subst hl
  rintro (⟨t, ht⟩ | ⟨x, r, h, -⟩ | h)
  · rcases hcm with rfl | rfl <;> simp at ht
  · rcases hcm with rfl | rfl <;> simp at h
  · rcases hcm with rfl | rfl <;> simp at h

example : BareComment p!"c" ∧ CardHead p!"m1" p!"m1 1001 1" := ⟨.inl rfl, p!"m1", ' ', p!"1001 1", rfl, rfl, .inl rfl⟩

/-- C171 is violated by every material given by atoms. -/
theorem C171_atoms_violated {F : Type} [Zero F] [LT F] (m : Material F) (_ : ∀ e ∈ m.composition, 0 < e.2) : isByWeight m = true := rfl

/-- C172 is violated by every surface with a wrong number of entries. -/
theorem C172_count_violated (s : Surface) (_ : s.params.length ∉ entryCounts s.surfType) :
    checkPlane s = true ∧ checkSphere s = true ∧ checkCylinder s = true ∧ checkCone s = true ∧ checkGQ s = true := ⟨rfl, rfl, rfl, rfl, rfl⟩

example : (⟨1, p!"px", [], none⟩ : Surface).params.length ∉ entryCounts (⟨1, p!"px", [], none⟩ : Surface).surfType := by decide

/-- C179 is violated by every input that has a comment, an irradiation or a cooling time: nothing is found in any input. -/
theorem C179_any_violated (lines : List Str) :
    FispactInput.getComments lines = none ∧ FispactInput.getIrradProfile lines = none ∧ FispactInput.getCoolTimes lines = none :=
  ⟨rfl, rfl, rfl⟩

end blocks

section pie
open FispactPlots
variable {K : Type} [Field K] [LinearOrder K] [IsStrictOrderedRing K]

/-- C160 is violated whenever the nuclides left out have a share: every wedge of a positive value is larger than its part of any larger
    total, because the circle is divided among the nuclides shown. -/
theorem C160_shares_violated {t : Dominant K} {param : Str} {thres : K} {w : List (Str × K)} (h : plotPie t param thres = .ok w) :
    ∃ names vals pct shown, t.names.get (param ++ p!"_nuc") = some names ∧ t.nums.get param = some vals ∧ t.nums.get (param ++ p!"_percent") = some pct ∧
      List.Sublist shown (names.zip vals) ∧ (∀ r, r ∈ shown ↔ ∃ p, (r, p) ∈ (names.zip vals).zip pct ∧ thres < p) ∧
      ∀ total, (shown.map (·.2)).sum < total → List.Forall₂ (fun (r : Str × K) (s : Str × K) => s.1 = r.1 ∧ (0 < r.2 → r.2 / total < s.2)) shown w := by
  obtain ⟨names, vals, pct, shown, h1, h2, h3, h4, h5, hw⟩ := C160_wedges_partial h
  refine ⟨names, vals, pct, shown, h1, h2, h3, h4, h5, ?_⟩
  intro total htot
  have hpos : ∀ r ∈ shown, 0 ≤ r.2 := by
    intro r hr
    obtain ⟨i, hi, rfl⟩ := List.getElem_of_mem hr
    have := (List.forall₂_iff_get.1 hw).2 i hi ((List.forall₂_iff_get.1 hw).1 ▸ hi)
    exact this.2.1
  have hle : ∀ r ∈ shown, r.2 ≤ (shown.map (·.2)).sum := by
    intro r hr
    exact List.single_le_sum (by
      intro x hx
      obtain ⟨r', hr', rfl⟩ := List.mem_map.1 hx
      exact hpos r' hr') _ (List.mem_map.2 ⟨r, hr, rfl⟩)
  have hmem : ∀ r ∈ shown, 0 < r.2 → 0 < (shown.map (·.2)).sum := fun r hr h0 => lt_of_lt_of_le h0 (hle r hr)
  generalize (shown.map (·.2)).sum = S at hw hmem htot
  clear hpos hle h h4 h5
  induction hw with
  | nil => exact .nil
  | @cons r s rs ss hrs _ ih =>
    refine .cons ⟨hrs.1, ?_⟩ (ih (fun r' hr' => hmem r' (by simp [hr'])))
    intro h0
    have hS := hmem r (by simp) h0
    have := hrs.2.2 hS
    have hs0 : 0 < s.2 := by
      by_contra hcon
      have := mul_nonpos_of_nonpos_of_nonneg (not_lt.1 hcon) hS.le
      linarith
    rw [div_lt_iff₀ (lt_trans hS htot), ← this]
    exact mul_lt_mul_of_pos_left htot hs0

end pie
end Props
