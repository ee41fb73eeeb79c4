/- Property C15: cards written by wrap_tokens (output_utilities.py) are read back by mcnp_input_reader.py. -/
import Verif.Props.McnpInput2

set_option linter.unusedSectionVars false
set_option linter.unusedSimpArgs false

namespace Props
open Py NeutUtilities OutputUtilities McnpInput Spec.Mcnp
variable {F : Type}

private theorem wrapLoop_first {maxLen : Int} {cont : Str} (tokens : List Str) :
    ∀ (lines : List Str) (cur : Str) (L : List Str) (C : Str),
      wrapLoop maxLen cont lines cur tokens = .ok (L, C) →
      ∃ E, L = lines ++ E ∧ ∀ l ∈ (E ++ [rstrip C]).head?, ∃ x, l = rstrip (cur ++ x) := by
  induction tokens with
  | nil =>
    intro lines cur L C h
    simp [wrapLoop] at h
    refine ⟨[], by simp [h.1], ?_⟩
    rw [← h.2]
    intro l hl
    simp at hl
    exact ⟨[], by simp [hl]⟩
  | cons t ts ih =>
    intro lines cur L C h
    rw [wrapLoop] at h
    by_cases hs : strip t = []
    · simp only [hs, if_true] at h
      exact ih _ _ _ _ h
    · simp only [hs, if_false] at h
      split at h
      · simp at h
      · split at h
        · obtain ⟨E, hE, _⟩ := ih _ _ _ _ h
          refine ⟨rstrip cur :: E, by simp [hE], ?_⟩
          intro l hl
          simp at hl
          exact ⟨[], by simp [hl]⟩
        · split at h
          · obtain ⟨E, hE, hx⟩ := ih _ _ _ _ h
            refine ⟨E, hE, fun l hl => ?_⟩
            obtain ⟨x, rfl⟩ := hx l hl
            exact ⟨strip t ++ x, by simp⟩
          · obtain ⟨E, hE, hx⟩ := ih _ _ _ _ h
            refine ⟨E, hE, fun l hl => ?_⟩
            obtain ⟨x, rfl⟩ := hx l hl
            exact ⟨[' '] ++ strip t ++ x, by simp⟩

private theorem rstrip_append_nonblank {a x : Str} (h : ¬ ∀ c ∈ x, isSpace c = true) : rstrip (a ++ x) = a ++ rstrip x := by
  obtain ⟨b, hb, hbs⟩ := rstrip_decomp x
  have hne : rstrip x ≠ [] := fun h0 => h (rstrip_eq_nil_iff.1 h0)
  conv_lhs => rw [hb]
  rw [← List.append_assoc, rstrip_append_blank hbs, rstrip_eq_self_iff]
  intro h'
  rw [List.getLast_append_of_ne_nil h' hne]
  exact rstrip_last hne

/-- C15: shape of a wrapped card with the default continuation prefix. -/
theorem C15_shape (pre : Str) (tokens : List Str) (maxLen : Int) (out : List Str) (hp : Spec.IsWord pre)
    (h : wrapTokens pre tokens maxLen p!"     " = .ok out) :
    ∃ first body, out = first :: body ∧ (first = pre ∨ ∃ r, first = pre ++ ' ' :: r) ∧ ∀ l ∈ body, Cont l := by
  obtain ⟨_, _, htail⟩ := C14_shape pre p!"     " tokens maxLen out h
  obtain ⟨L, C, hL, hout⟩ := wrapTokens_ok h
  obtain ⟨E, hE, hx⟩ := wrapLoop_first tokens _ _ _ _ hL
  simp only [List.nil_append] at hE
  subst hE
  have hpre : ∀ x, rstrip (pre ++ [' '] ++ x) = pre ∨ ∃ r, rstrip (pre ++ [' '] ++ x) = pre ++ ' ' :: r := by
    intro x
    by_cases hb : ∀ c ∈ x, isSpace c = true
    · left
      rw [List.append_assoc, rstrip_append_blank]
      · rw [rstrip_eq_self_iff]; intro h'; exact hp.2 _ (List.getLast_mem h')
      · intro c hc
        rcases List.mem_append.1 hc with hc | hc
        · simp at hc; subst hc; decide
        · exact hb c hc
    · right
      exact ⟨rstrip x, by rw [rstrip_append_nonblank hb]; simp⟩
  have hne : ∀ x, rstrip (pre ++ [' '] ++ x) ≠ [] := by
    intro x h0
    rcases hpre x with h1 | ⟨r, h1⟩
    · rw [h0] at h1; exact hp.1 h1.symm
    · rw [h0] at h1; simp at h1
  obtain ⟨first, body, hfb, hfirst⟩ : ∃ first body, out = first :: body ∧ ∃ x, first = rstrip (pre ++ [' '] ++ x) := by
    cases L with
    | nil =>
      obtain ⟨x, hx⟩ := hx (rstrip C) (by simp)
      rcases hout with rfl | ⟨rfl, h0⟩
      · exact ⟨rstrip C, [], rfl, x, hx⟩
      · exact absurd (hx ▸ h0) (hne x)
    | cons l ls =>
      obtain ⟨x, hx⟩ := hx l (by simp)
      rcases hout with rfl | ⟨rfl, _⟩
      · exact ⟨l, ls ++ [rstrip C], rfl, x, hx⟩
      · exact ⟨l, ls, rfl, x, hx⟩
  refine ⟨first, body, hfb, ?_, ?_⟩
  · obtain ⟨x, rfl⟩ := hfirst; exact hpre x
  · intro l hl
    exact (htail l (by rw [hfb]; exact hl)).1

private theorem wrap_chars (Q : Char → Prop) (hsp : Q ' ') (pre : Str) (tokens : List Str) (maxLen : Int) (out : List Str)
    (hpre : ∀ c ∈ pre, Q c) (htok : ∀ t ∈ tokens, ∀ c ∈ t, Q c)
    (h : wrapTokens pre tokens maxLen p!"     " = .ok out) : ∀ l ∈ out, ∀ c ∈ l, Q c := by
  obtain ⟨L, C, hL, hout⟩ := wrapTokens_ok h
  have hstrip : ∀ t ∈ tokens, ∀ c ∈ strip t, Q c := by
    intro t ht c hc
    obtain ⟨a, b, hab, _⟩ := strip_decomp t
    exact htok t ht c (by rw [hab]; simp [hc])
  have hr : ∀ s : Str, (∀ c ∈ s, Q c) → ∀ c ∈ rstrip s, Q c := by
    intro s hs c hc
    exact hs c ((rstrip_prefix s).subset hc)
  -- the current line itself, not only its trimmed form
  have key : ∀ (ts : List Str), (∀ t ∈ ts, ∀ c ∈ strip t, Q c) → ∀ (lines : List Str) (cur : Str) (L : List Str) (C : Str),
      (∀ l ∈ lines, ∀ c ∈ l, Q c) → (∀ c ∈ cur, Q c) → wrapLoop maxLen (contPrefix p!"     ") lines cur ts = .ok (L, C) →
      (∀ l ∈ L, ∀ c ∈ l, Q c) ∧ ∀ c ∈ C, Q c := by
    intro ts
    induction ts with
    | nil => intro _ lines cur L C h1 h2 h; simp [wrapLoop] at h; rw [← h.1, ← h.2]; exact ⟨h1, h2⟩
    | cons t ts ih =>
      intro ht lines cur L C h1 h2 h
      have ih := ih (fun t' ht' => ht t' (by simp [ht']))
      have htt := ht t (by simp)
      rw [wrapLoop] at h
      by_cases hs : strip t = []
      · simp only [hs, if_true] at h
        exact ih _ _ _ _ h1 h2 h
      · simp only [hs, if_false] at h
        split at h
        · simp at h
        · split at h
          · refine ih _ _ _ _ ?_ ?_ h
            · intro l hl
              rcases List.mem_append.1 hl with hl | hl
              · exact h1 l hl
              · simp at hl; rw [hl]; exact hr cur h2
            · intro c hc
              rcases List.mem_append.1 hc with hc | hc
              · have : ∀ c ∈ contPrefix p!"     ", c = ' ' := by decide
                rw [this c hc]; exact hsp
              · exact htt c hc
          · split at h
            · refine ih _ _ _ _ h1 ?_ h
              intro c hc
              rcases List.mem_append.1 hc with hc | hc
              · exact h2 c hc
              · exact htt c hc
            · refine ih _ _ _ _ h1 ?_ h
              intro c hc
              rcases List.mem_append.1 hc with hc | hc
              · rcases List.mem_append.1 hc with hc | hc
                · exact h2 c hc
                · simp at hc; subst hc; exact hsp
              · exact htt c hc
  obtain ⟨k1, k2⟩ := key tokens hstrip _ _ _ _ (by simp) (by
    intro c hc
    rcases List.mem_append.1 hc with hc | hc
    · exact hpre c hc
    · simp at hc; subst hc; exact hsp) hL
  intro l hl
  rcases hout with rfl | ⟨rfl, _⟩
  · rcases List.mem_append.1 hl with hl | hl
    · exact k1 l hl
    · simp at hl; rw [hl]; exact hr C k2
  · exact k1 l hl

/-- Lower case text without '$'. -/
def Plain (s : Str) : Prop := ∀ c ∈ s, c.toLower = c ∧ c ≠ '$'

private theorem plain_id {s : Str} (h : Plain s) : lower (code s) = s := by
  have h1 : code s = s := by
    unfold code
    rw [List.takeWhile_eq_self_iff]
    intro c hc; simpa using (h c hc).2
  rw [h1]
  unfold lower
  conv_rhs => rw [← List.map_id s]
  exact List.map_congr_left (fun c hc => (h c hc).1)

private theorem cardText_wrap {first : Str} {body : List Str} (h : ∀ l ∈ first :: body, Plain l) (hc : ∀ l ∈ body, Cont l) :
    cardText first body = first :: body := by
  unfold cardText
  rw [plain_id (h first (by simp)), List.filter_eq_self.2 (by intro l hl; simpa using hc l hl)]
  congr 1
  conv_rhs => rw [← List.map_id body]
  exact List.map_congr_left (fun l hl => plain_id (h l (by simp [hl])))

/-- C15 (part that holds): when the first line is not the bare card name, card extraction returns the wrapped lines
    unchanged, so its words are the card name and the words of the tokens in order. Missing: a first line that is the bare
    name (`C15_bare_name_violated`). -/
theorem C15_round_trip_partial (card : Str) (tokens : List Str) (maxLen : Int) (out : List Str) (hp : Spec.IsWord card)
    (hl : Plain card) (ht : ∀ t ∈ tokens, Plain t) (h : wrapTokens card tokens maxLen p!"     " = .ok out)
    (hb : out.head? ≠ some card) (f : Str → List Str) (hf : ∀ s, Spec.IsWords s (f s)) :
    getCardLines out card = out ∧ (getCardLines out card).flatMap f = card :: tokens.flatMap f := by
  obtain ⟨first, body, rfl, hfirst, hcont⟩ := C15_shape card tokens maxLen out hp h
  have hplain := wrap_chars (fun c => c.toLower = c ∧ c ≠ '$') (by decide) card tokens maxLen _ hl ht h
  have hfirst : ∃ r, first = card ++ ' ' :: r := by
    rcases hfirst with rfl | h'
    · simp at hb
    · exact h'
  have hlow : lower card = card := by
    unfold lower
    conv_rhs => rw [← List.map_id card]
    exact List.map_congr_left (fun c hc => (hl c hc).1)
  have hcard : Card (CardHead card) (first :: body) first body := by
    refine ⟨[], [], by simp, by simp, ?_, fun l hl => .inl (hcont l hl), by simp⟩
    obtain ⟨r, rfl⟩ := hfirst
    exact ⟨card, ' ', r, rfl, rfl, .inl rfl⟩
  have hne : card.head? ≠ some ' ' := by
    obtain ⟨c, cs, rfl⟩ := List.exists_cons_of_ne_nil hp.1
    simp only [List.head?_cons, ne_eq, Option.some.injEq]
    rintro rfl
    have := hp.2 ' ' (by simp)
    simp [isSpace_space] at this
  have hres : getCardLines (first :: body) card = first :: body := by
    rw [C81_card_lines _ card first body hp.1 hne hcard, cardText_wrap hplain hcont]
  refine ⟨hres, ?_⟩
  rw [hres, C12_words_preserved card p!"     " tokens maxLen _ (by unfold Spec.Blank; decide) h f hf]
  have : f = splitWs := by funext s; exact (splitWs_of_isWords (hf s)).symm
  subst this
  rw [splitWs_word hp.1 hp.2]; rfl

/-- C15: that is the case when the first token that is not blank fits on the first line. -/
theorem C15_first_token_fits (card : Str) (blanks rest : List Str) (t : Str) (maxLen : Int) (out : List Str)
    (hb : ∀ s ∈ blanks, Spec.Blank s) (ht : ¬ Spec.Blank t)
    (hfit : (card.length : Int) + 1 + (strip t).length + 1 ≤ maxLen)
    (h : wrapTokens card (blanks ++ t :: rest) maxLen p!"     " = .ok out) : out.head? ≠ some card := by
  obtain ⟨L, C, hL, hout⟩ := wrapTokens_ok h
  have hts : strip t ≠ [] := fun h0 => ht (strip_eq_nil_iff.1 h0)
  have hskip : ∀ (bs : List Str), (∀ s ∈ bs, Spec.Blank s) → ∀ lines cur,
      wrapLoop maxLen (contPrefix p!"     ") lines cur (bs ++ t :: rest) = wrapLoop maxLen (contPrefix p!"     ") lines cur (t :: rest) := by
    intro bs
    induction bs with
    | nil => intro _ _ _; rfl
    | cons b bs ih =>
      intro hb lines cur
      rw [List.cons_append, wrapLoop, if_pos (strip_eq_nil_iff.2 (hb b (by simp))), ih (fun s hs => hb s (by simp [hs]))]
  rw [hskip blanks hb, wrapLoop, if_neg hts] at hL
  have hlen : ¬ ((strip t).length : Int) > maxLen := by omega
  have hlen2 : ¬ (((card ++ [' ']).length : Int) + (strip t).length + 1 > maxLen) := by
    simp only [List.length_append, List.length_cons, List.length_nil]; push_cast; omega
  have hends : endsWith (card ++ [' ']) [' '] = true := by rw [endsWith_iff]; exact ⟨card, rfl⟩
  simp only [hlen, hlen2, hends, if_true, if_false] at hL
  obtain ⟨E, hE, _, hhead⟩ := wrapLoop_shape rest _ _ _ _ hL
  simp only [List.nil_append] at hE
  subst hE
  rw [rstrip_append_strip hts] at hhead
  intro h0
  have hlong : ∀ l, card ++ [' '] ++ strip t <+: l → l ≠ card := by
    rintro l hl rfl
    have := hl.length_le
    simp at this
  cases L with
  | nil =>
    rcases hout with rfl | ⟨rfl, hC⟩
    · simp only [List.nil_append, List.head?_cons, Option.some.injEq] at h0
      exact hlong _ (hhead (rstrip C) (by simp)) h0
    · simp at h0
  | cons l ls =>
    have h1 := hhead l (by simp)
    rcases hout with rfl | ⟨rfl, hC⟩
    · simp only [List.cons_append, List.head?_cons, Option.some.injEq] at h0
      exact hlong _ h1 h0
    · simp only [List.head?_cons, Option.some.injEq] at h0
      exact hlong _ h1 h0

/-- C15 is violated: when the first token has to go to the next line, the first line is the bare card name and the card is
    not found at all. -/
theorem C15_bare_name_violated : ∃ out, wrapTokens p!"sdef" [List.replicate 75 'a'] 80 p!"     " = .ok out ∧
    getCardLines out p!"sdef" = [] :=
  ⟨[p!"sdef", p!"     " ++ List.replicate 75 'a'], by decide +kernel, by decide +kernel⟩

/-- C15 for materials, without that exception: a wrapped material card is read back with its pairs, last one wins. -/
theorem C15_material (flt : Str → Option F) (n : Nat) (tokens : List Str) (maxLen : Int) (out : List Str)
    (ht : ∀ t ∈ tokens, Plain t) (h : wrapTokens (p!"m" ++ natStr n) tokens maxLen p!"     " = .ok out)
    (f : Str → List Str) (hf : ∀ s, Spec.IsWords s (f s)) (heq : ∀ t ∈ tokens, '=' ∉ t)
    (es : List (Str × Str × F)) (hes : ∀ e ∈ es, flt e.2.1 = some e.2.2)
    (hw : tokens.flatMap f = es.flatMap (fun e => [e.1, e.2.1])) :
    ∃ m, readMaterialLines flt n out = .ok m ∧ m.number = n ∧
      (∀ z x, m.composition.get z = some x ↔ LastWins (es.map (fun e => (e.1, e.2.2))) z x) ∧
      m.numNuclides = (es.map (·.1)).dedup.length := by
  have hdig : ∀ c ∈ natStr n, c.toLower = c ∧ c ≠ '$' := by
    intro c hc
    have := natStr_isDigit hc
    exact ⟨digit_toLower_self this, by rintro rfl; exact absurd this (by decide)⟩
  have hword : Spec.IsWord (p!"m" ++ natStr n) := by
    refine ⟨by simp, ?_⟩
    intro c hc
    rcases List.mem_append.1 hc with hc | hc
    · simp at hc; subst hc; decide
    · exact isDigit_not_space (natStr_isDigit hc)
  have hl : Plain (p!"m" ++ natStr n) := by
    intro c hc
    rcases List.mem_append.1 hc with hc | hc
    · simp at hc; subst hc; decide
    · exact hdig c hc
  obtain ⟨first, body, rfl, hfirst, hcont⟩ := C15_shape _ tokens maxLen out hword h
  have hplain := wrap_chars (fun c => c.toLower = c ∧ c ≠ '$') (by decide) _ tokens maxLen _ hl ht h
  have hcard : Card (MatHead n) (first :: body) first body := by
    refine ⟨[], [], by simp, by simp, ?_, fun l hl => .inl (hcont l hl), by simp⟩
    rcases hfirst with rfl | ⟨r, rfl⟩
    · exact ⟨'m', [], by simp, .inl rfl, .inl rfl⟩
    · exact ⟨'m', ' ' :: r, by simp, .inl rfl, .inr rfl⟩
  have hcw : cardWords f first body = tokens.flatMap f := by
    unfold cardWords
    rw [cardText_wrap hplain hcont, C12_words_preserved _ p!"     " tokens maxLen _ (by unfold Spec.Blank; decide) h f hf]
    have : f = splitWs := by funext s; exact (splitWs_of_isWords (hf s)).symm
    subst this
    rw [splitWs_word hword.1 hword.2]; rfl
  have hneq : ∀ w ∈ tokens.flatMap f, '=' ∉ w := by
    have : f = splitWs := by funext s; exact (splitWs_of_isWords (hf s)).symm
    subst this
    intro w hw hc
    rw [List.mem_flatMap] at hw
    obtain ⟨t, htm, hwt⟩ := hw
    have hsub := splitP_flatten isSpace t
    have h1 : '=' ∈ (splitP isSpace t).flatten := List.mem_flatten.2 ⟨w, (List.mem_filter.1 hwt).1, hc⟩
    rw [hsub] at h1
    exact heq t htm (List.mem_of_mem_filter h1)
  obtain ⟨m, h1, h2, h3, _, h5, _⟩ := C83_material flt n (first :: body) first body f hf hcard es hes
    (by rw [hcw, List.filter_eq_self.2 (by intro w hw'; simpa using hneq w hw'), hw])
    (by rw [hcw]; intro w hw' h'; exact absurd h' (hneq w hw'))
  exact ⟨m, h1, h2, h3, h5⟩

example : ∃ out, wrapTokens p!"m1" [p!"1001", p!"2", p!"8016", p!"1"] 10 p!"     " = .ok out ∧
    out = [p!"m1 1001 2", p!"     8016", p!"     1"] ∧ getCardLines out p!"m1" = out :=
  ⟨_, by decide +kernel, rfl, by decide +kernel⟩
example : Plain p!"m1" ∧ Spec.IsWord p!"m1" := by
  constructor
  · unfold Plain; decide
  · exact ⟨by simp, by decide⟩

end Props
