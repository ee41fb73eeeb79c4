/- Helper lemmas for the models of output_utilities.py, ofile_reduce.py, lost_points.py. -/
import Verif.Proofs.NeutUtilities
import Verif.Model.OutputUtilities

namespace Py

theorem strip_last {t : Str} (h : strip t ≠ []) : isSpace ((strip t).getLast h) = false := rstrip_last h

theorem rstrip_append_strip {a t : Str} (h : strip t ≠ []) : rstrip (a ++ strip t) = a ++ strip t := by
  rw [rstrip_eq_self_iff]
  intro h'
  rw [List.getLast_append_of_ne_nil h' h]
  exact strip_last h

theorem rstrip_prefix (s : Str) : rstrip s <+: s := by
  obtain ⟨b, hb, _⟩ := rstrip_decomp s
  exact ⟨b, hb.symm⟩

theorem rstrip_length_le (s : Str) : (rstrip s).length ≤ s.length := (rstrip_prefix s).length_le

theorem rstrip_rstrip (s : Str) : rstrip (rstrip s) = rstrip s := by
  rw [rstrip_eq_self_iff]; intro h; exact rstrip_last h

theorem splitWs_append_endsSpace {a b : Str} (h : endsWith a [' '] = true) :
    splitWs (a ++ b) = splitWs a ++ splitWs b := by
  rw [endsWith_iff] at h
  obtain ⟨p, rfl⟩ := h
  rw [List.append_assoc, List.singleton_append, splitWs_append_space (by decide),
    splitWs_append_blank (a := p) (by simp; decide)]

theorem lstrip_append {s b : Str} (h : ¬ ∀ c ∈ s, isSpace c = true) : lstrip (s ++ b) = lstrip s ++ b := by
  induction s with
  | nil => simp at h
  | cons c cs ih =>
    by_cases hc : isSpace c = true
    · have : ¬ ∀ d ∈ cs, isSpace d = true := by
        intro h'; apply h; intro d hd
        rcases List.mem_cons.1 hd with rfl | hd
        · exact hc
        · exact h' d hd
      simp only [lstrip, List.cons_append, List.dropWhile_cons, hc, if_true]
      exact ih this
    · simp [lstrip, hc]

theorem strip_append_blank {s b : Str} (hb : ∀ c ∈ b, isSpace c = true) : strip (s ++ b) = strip s := by
  by_cases h : ∀ c ∈ s, isSpace c = true
  · rw [strip_eq_nil_iff.2 h, strip_eq_nil_iff]
    intro c hc
    rcases List.mem_append.1 hc with hc | hc
    · exact h c hc
    · exact hb c hc
  · rw [strip, lstrip_append h, rstrip_append_blank hb]; rfl

theorem slice_append_singleton {α : Type*} (l : List α) (c : α) (a b : Nat) :
    slice (l ++ [c]) a b = slice l a b ∨ slice (l ++ [c]) a b = slice l a b ++ [c] := by
  unfold slice
  by_cases hb : b ≤ l.length
  · left; rw [List.take_append_of_le_length hb]
  · rw [List.take_of_length_le (l := l ++ [c]) (by simp; omega), List.take_of_length_le (l := l) (by omega)]
    by_cases ha : a ≤ l.length
    · right; rw [List.drop_append_of_le_length ha]
    · left; rw [List.drop_eq_nil_of_le (by simp; omega), List.drop_eq_nil_of_le (by omega)]

theorem strip_slice_append_blank (l : Str) {c : Char} (hc : isSpace c = true) (a b : Nat) :
    strip (slice (l ++ [c]) a b) = strip (slice l a b) := by
  rcases slice_append_singleton l c a b with h | h
  · rw [h]
  · rw [h, strip_append_blank (by simpa using hc)]

theorem infix_append_singleton {sub l : Str} {c : Char} (hc : c ∉ sub) : sub <:+: l ++ [c] ↔ sub <:+: l := by
  rw [List.infix_concat_iff, List.suffix_concat_iff]
  constructor
  · rintro ((rfl | ⟨t, rfl, _⟩) | h)
    · exact List.nil_infix
    · simp at hc
    · exact h
  · exact Or.inr

theorem keepLines_cons_ne {c : Char} {cs : Str} (h : c ≠ '\n') :
    keepLines (c :: cs) = (c :: (keepLines cs).headD []) :: (keepLines cs).tail := by
  rw [keepLines, if_neg h]
  split
  · next h => simp [h]
  · next l ls h => simp [h]

theorem keepLines_line_append {l rest : Str} (h : '\n' ∉ l) :
    keepLines (l ++ '\n' :: rest) = (l ++ ['\n']) :: keepLines rest := by
  induction l with
  | nil => simp [keepLines]
  | cons c cs ih =>
    have hc : c ≠ '\n' := by rintro rfl; simp at h
    rw [List.cons_append, keepLines_cons_ne hc, ih (fun h' => h (by simp [h']))]
    rfl

theorem keepLines_no_nl {l : Str} (h : '\n' ∉ l) : keepLines l = if l = [] then [] else [l] := by
  induction l with
  | nil => rfl
  | cons c cs ih =>
    have hc : c ≠ '\n' := by rintro rfl; simp at h
    rw [keepLines_cons_ne hc, ih (fun h' => h (by simp [h']))]
    cases cs <;> simp

theorem keepLines_flatMap {ls : List Str} {last : Str} (h : ∀ l ∈ ls, '\n' ∉ l) (hl : '\n' ∉ last) :
    keepLines (ls.flatMap (fun l => l ++ ['\n']) ++ last) =
      ls.map (fun l => l ++ ['\n']) ++ (if last = [] then [] else [last]) := by
  induction ls with
  | nil => simpa using keepLines_no_nl hl
  | cons l ls ih =>
    rw [List.flatMap_cons, List.append_assoc, List.append_assoc, List.singleton_append,
      keepLines_line_append (h l (by simp)), ih (fun l hl' => h l (by simp [hl']))]
    rfl

/-- Every text is a sequence of newline terminated lines followed by an unterminated rest. -/
theorem exists_lines (text : Str) : ∃ ls last, text = List.flatMap (fun l => l ++ ['\n']) ls ++ last ∧
    (∀ l ∈ ls, '\n' ∉ l) ∧ '\n' ∉ last := by
  induction text with
  | nil => exact ⟨[], [], by simp⟩
  | cons c cs ih =>
    obtain ⟨ls, last, h, h1, h2⟩ := ih
    by_cases hc : c = '\n'
    · refine ⟨[] :: ls, last, by simp [h, hc], ?_, h2⟩
      intro l hl
      rcases List.mem_cons.1 hl with rfl | hl
      · simp
      · exact h1 l hl
    · cases ls with
      | nil =>
        refine ⟨[], c :: last, by simp [h], by simp, ?_⟩
        simp [h2, Ne.symm hc]
      | cons l ls =>
        refine ⟨(c :: l) :: ls, last, by simp [h], ?_, h2⟩
        intro l' hl'
        rcases List.mem_cons.1 hl' with rfl | hl'
        · simp [h1 l (by simp), Ne.symm hc]
        · exact h1 l' (by simp [hl'])

end Py

namespace OutputUtilities
open Py NeutUtilities

theorem contPrefix_blank {cont : Str} (h : ∀ c ∈ cont, isSpace c = true) : ∀ c ∈ contPrefix cont, isSpace c = true := by
  unfold contPrefix
  split
  · intro c hc
    rcases List.mem_append.1 hc with hc | hc
    · exact h c hc
    · simp at hc; subst hc; decide
  · exact h

theorem wrapLoop_words {maxLen : Int} {cont : Str} (hb : ∀ c ∈ cont, isSpace c = true) :
    ∀ (tokens lines : List Str) (cur : Str) (L : List Str) (C : Str),
      wrapLoop maxLen cont lines cur tokens = .ok (L, C) →
      L.flatMap splitWs ++ splitWs C = lines.flatMap splitWs ++ splitWs cur ++ tokens.flatMap splitWs := by
  intro tokens
  induction tokens with
  | nil => intro lines cur L C h; simp [wrapLoop] at h; simp [h.1, h.2]
  | cons t ts ih =>
    intro lines cur L C h
    rw [wrapLoop] at h
    by_cases h1 : strip t = []
    · simp only [h1, if_true] at h
      rw [ih _ _ _ _ h, List.flatMap_cons, splitWs_eq_nil_iff.2 (strip_eq_nil_iff.1 h1)]; simp
    · simp only [h1, if_false] at h
      split at h
      · simp at h
      · split at h
        · rw [ih _ _ _ _ h, List.flatMap_cons, splitWs_blank_append hb, splitWs_strip]
          simp [splitWs_rstrip]
        · split at h
          · next h2 =>
            rw [ih _ _ _ _ h, List.flatMap_cons, splitWs_append_endsSpace h2, splitWs_strip]
            simp
          · rw [ih _ _ _ _ h, List.flatMap_cons, List.append_assoc cur, List.singleton_append,
              splitWs_append_space (by decide), splitWs_strip]
            simp

theorem wrapLoop_error {maxLen : Int} {cont : Str} :
    ∀ (tokens lines : List Str) (cur : Str) (e : Err),
      wrapLoop maxLen cont lines cur tokens = .error e ↔
        e = .ValueError ∧ ∃ t ∈ tokens, strip t ≠ [] ∧ maxLen < ((strip t).length : Int) := by
  intro tokens
  induction tokens with
  | nil => intro lines cur e; simp [wrapLoop]
  | cons t ts ih =>
    intro lines cur e
    rw [wrapLoop]
    by_cases h1 : strip t = []
    · simp [h1, ih]
    · simp only [h1, if_false]
      split
      · next h2 =>
        constructor
        · intro h; cases h; exact ⟨rfl, t, by simp, h1, h2⟩
        · rintro ⟨rfl, _⟩; rfl
      · next h2 =>
        have : (∃ t' ∈ t :: ts, strip t' ≠ [] ∧ maxLen < ((strip t').length : Int)) ↔
            ∃ t' ∈ ts, strip t' ≠ [] ∧ maxLen < ((strip t').length : Int) := by
          constructor
          · rintro ⟨t', ht', h⟩
            rcases List.mem_cons.1 ht' with rfl | ht'
            · exact absurd h.2 h2
            · exact ⟨t', ht', h⟩
          · rintro ⟨t', ht', h⟩; exact ⟨t', by simp [ht'], h⟩
        rw [this]
        split
        · exact ih _ _ e
        · split
          · exact ih _ _ e
          · exact ih _ _ e

/-- An invariant of the loop: `P` holds of all emitted lines and of the trimmed current line. -/
theorem wrapLoop_inv {maxLen : Int} {cont : Str} (P : Str → Prop) (tokens : List Str) :
    ∀ (lines : List Str) (cur : Str) (L : List Str) (C : Str), (∀ l ∈ lines, P l) → P (rstrip cur) →
      (∀ t ∈ tokens, strip t ≠ [] → P (cont ++ strip t)) →
      (∀ t ∈ tokens, strip t ≠ [] → ∀ c, P (rstrip c) → (c.length : Int) + (strip t).length + 1 ≤ maxLen →
          P ((if endsWith c [' '] then c else c ++ [' ']) ++ strip t)) →
      wrapLoop maxLen cont lines cur tokens = .ok (L, C) → (∀ l ∈ L, P l) ∧ P (rstrip C) := by
  induction tokens with
  | nil => intro lines cur L C h1 h2 _ _ h; simp [wrapLoop] at h; rw [← h.1, ← h.2]; exact ⟨h1, h2⟩
  | cons t ts ih =>
    intro lines cur L C h1 h2 hcont happ h
    have ih := fun lines cur L C h1 h2 => ih lines cur L C h1 h2 (fun t' ht' => hcont t' (by simp [ht']))
      (fun t' ht' => happ t' (by simp [ht']))
    rw [wrapLoop] at h
    by_cases hs : strip t = []
    · simp only [hs, if_true] at h
      exact ih _ _ _ _ h1 h2 h
    · simp only [hs, if_false] at h
      split at h
      · simp at h
      · next hlen =>
        split at h
        · refine ih _ _ _ _ ?_ ?_ h
          · intro l hl
            rcases List.mem_append.1 hl with hl | hl
            · exact h1 l hl
            · simp at hl; rw [hl]; exact h2
          · rw [rstrip_append_strip hs]; exact hcont t (by simp) hs
        · next hfit =>
          have := happ t (by simp) hs cur h2 (by omega)
          split at h
          · next he =>
            refine ih _ _ _ _ h1 ?_ h
            rw [rstrip_append_strip hs]; simpa [he] using this
          · next he =>
            refine ih _ _ _ _ h1 ?_ h
            rw [rstrip_append_strip hs]; simpa [he] using this

/-- Appending a token keeps the (trimmed) current line as a prefix. -/
theorem prefix_append_tok {p c tok : Str} (h : p <+: rstrip c) :
    p <+: (if endsWith c [' '] then c else c ++ [' ']) ++ tok := by
  have h1 : p <+: c := h.trans (rstrip_prefix c)
  split
  · exact h1.trans (List.prefix_append _ _)
  · rw [List.append_assoc]; exact h1.trans (List.prefix_append _ _)

/-- Shape of the emitted lines: the first one extends the current line, the others start with `cont`. -/
theorem wrapLoop_shape {maxLen : Int} {cont : Str} (tokens : List Str) :
    ∀ (lines : List Str) (cur : Str) (L : List Str) (C : Str),
      wrapLoop maxLen cont lines cur tokens = .ok (L, C) →
      ∃ E, L = lines ++ E ∧ (∀ l ∈ (E ++ [rstrip C]).tail, cont <+: l) ∧
        ∀ l ∈ (E ++ [rstrip C]).head?, rstrip cur <+: l := by
  induction tokens with
  | nil =>
    intro lines cur L C h
    simp [wrapLoop] at h
    refine ⟨[], by simp [h.1], by simp, ?_⟩
    rw [← h.2]
    simp
  | cons t ts ih =>
    intro lines cur L C h
    rw [wrapLoop] at h
    by_cases hs : strip t = []
    · simp only [hs, if_true] at h
      exact ih _ _ _ _ h
    · simp only [hs, if_false] at h
      split at h
      · simp at h
      · split at h
        · obtain ⟨E, hE, hE1, hE2⟩ := ih _ _ _ _ h
          refine ⟨rstrip cur :: E, by simp [hE], ?_, by simp⟩
          simp only [List.cons_append, List.tail_cons]
          intro l hl
          cases E with
          | nil =>
            simp only [List.nil_append, List.head?_cons, Option.mem_def, Option.some.injEq,
              List.mem_singleton] at hE2 hl
            have := hE2 l hl.symm
            rw [rstrip_append_strip hs] at this
            exact (List.prefix_append _ _).trans this
          | cons e E =>
            simp only [List.cons_append, List.head?_cons, Option.mem_def, Option.some.injEq] at hE2
            rw [List.cons_append] at hl
            rcases List.mem_cons.1 hl with rfl | hl
            · have := hE2 l rfl
              rw [rstrip_append_strip hs] at this
              exact (List.prefix_append _ _).trans this
            · exact hE1 l hl
        · split at h
          · next he =>
            obtain ⟨E, hE, hE1, hE2⟩ := ih _ _ _ _ h
            refine ⟨E, hE, hE1, fun l hl => ?_⟩
            have := hE2 l hl
            rw [rstrip_append_strip hs] at this
            exact ((rstrip_prefix cur).trans (List.prefix_append _ _)).trans this
          · next he =>
            obtain ⟨E, hE, hE1, hE2⟩ := ih _ _ _ _ h
            refine ⟨E, hE, hE1, fun l hl => ?_⟩
            have := hE2 l hl
            rw [rstrip_append_strip hs, List.append_assoc] at this
            exact ((rstrip_prefix cur).trans (List.prefix_append _ _)).trans this

/-- `wrap_tokens` in terms of the loop. -/
theorem wrapTokens_ok {pre cont : Str} {tokens : List Str} {maxLen : Int} {out : List Str}
    (h : wrapTokens pre tokens maxLen cont = .ok out) :
    ∃ L C, wrapLoop maxLen (contPrefix cont) [] (pre ++ [' ']) tokens = .ok (L, C) ∧
      (out = L ++ [rstrip C] ∨ (out = L ∧ rstrip C = [])) := by
  unfold wrapTokens at h
  cases tokens with
  | nil =>
    simp only [List.isEmpty_nil, if_true, Except.ok.injEq] at h
    exact ⟨[], pre ++ [' '], rfl, Or.inl (by simp [h])⟩
  | cons t ts =>
    simp only [List.isEmpty_cons, Bool.false_eq_true, if_false] at h
    cases hw : wrapLoop maxLen (contPrefix cont) [] (pre ++ [' ']) (t :: ts) with
    | error e => simp [hw] at h
    | ok r =>
      obtain ⟨L, C⟩ := r
      simp only [hw] at h
      refine ⟨L, C, rfl, ?_⟩
      split at h
      · simp at h; left; exact h.symm
      · next hc =>
        simp at h hc
        exact Or.inr ⟨h.symm, rstrip_eq_nil_iff.2 (strip_eq_nil_iff.1 hc)⟩

theorem wrapTokens_error {pre cont : Str} {tokens : List Str} {maxLen : Int} {e : Err} :
    wrapTokens pre tokens maxLen cont = .error e ↔
      wrapLoop maxLen (contPrefix cont) [] (pre ++ [' ']) tokens = .error e := by
  unfold wrapTokens
  cases tokens with
  | nil => simp [wrapLoop]
  | cons t ts =>
    simp only [List.isEmpty_cons, Bool.false_eq_true, if_false]
    cases hw : wrapLoop maxLen (contPrefix cont) [] (pre ++ [' ']) (t :: ts) with
    | error e => simp
    | ok r =>
      dsimp only
      split <;> simp

/-! Tables -/

theorem tallyRows_ok {α : Type} (row : α → α → α → α → Str) (t : Tally α) :
    ∀ (cs : List α) (i : Nat), i + cs.length ≤ t.result.length → i + cs.length ≤ t.err.length →
      tallyRows row t cs i =
        .ok ((cs.zip ((t.result.drop i).zip (t.err.drop i))).map (fun x => row t.number x.1 x.2.1 x.2.2)) := by
  intro cs
  induction cs with
  | nil => intro i _ _; rfl
  | cons c cs ih =>
    intro i h1 h2
    simp only [List.length_cons] at h1 h2
    have hr : i < t.result.length := by omega
    have he : i < t.err.length := by omega
    rw [tallyRows, List.getElem?_eq_getElem hr, List.getElem?_eq_getElem he]
    simp only
    rw [ih (i + 1) (by omega) (by omega), List.drop_eq_getElem_cons hr, List.drop_eq_getElem_cons he]
    rfl

theorem tallyRows_err {α : Type} (row : α → α → α → α → Str) (t : Tally α) :
    ∀ (cs : List α) (i : Nat), i ≤ t.result.length → i ≤ t.err.length →
      (t.result.length < i + cs.length ∨ t.err.length < i + cs.length) →
      tallyRows row t cs i = .error .IndexError := by
  intro cs
  induction cs with
  | nil => intro i h1 h2 h; simp at h; omega
  | cons c cs ih =>
    intro i h1 h2 h
    simp only [List.length_cons] at h
    rw [tallyRows]
    by_cases hr : i < t.result.length
    · by_cases he : i < t.err.length
      · rw [List.getElem?_eq_getElem hr, List.getElem?_eq_getElem he]
        simp only
        rw [ih (i + 1) (by omega) (by omega) (by omega)]
      · rw [List.getElem?_eq_none (l := t.err) (by omega), List.getElem?_eq_getElem hr]
    · rw [List.getElem?_eq_none (l := t.result) (by omega)]

theorem allRows_ok {α : Type} (row : α → α → α → α → Str) (ts : List (Tally α))
    (h : ∀ t ∈ ts, t.cells.length ≤ t.result.length ∧ t.cells.length ≤ t.err.length) :
    allRows row ts = .ok (ts.flatMap (fun t =>
      (t.cells.zip (t.result.zip t.err)).map (fun x => row t.number x.1 x.2.1 x.2.2))) := by
  induction ts with
  | nil => rfl
  | cons t ts ih =>
    have ht := h t (by simp)
    rw [allRows, tallyRows_ok row t t.cells 0 (by omega) (by omega), ih (fun t ht => h t (by simp [ht]))]
    rfl

theorem allRows_err {α : Type} (row : α → α → α → α → Str) (ts : List (Tally α))
    (h : ∃ t ∈ ts, t.result.length < t.cells.length ∨ t.err.length < t.cells.length) :
    allRows row ts = .error .IndexError := by
  induction ts with
  | nil => simp at h
  | cons t ts ih =>
    rw [allRows]
    by_cases ht : t.result.length < t.cells.length ∨ t.err.length < t.cells.length
    · rw [tallyRows_err row t t.cells 0 (by omega) (by omega) (by omega)]
    · rw [tallyRows_ok row t t.cells 0 (by omega) (by omega)]
      have : ∃ t ∈ ts, t.result.length < t.cells.length ∨ t.err.length < t.cells.length := by
        obtain ⟨t', ht', h'⟩ := h
        rcases List.mem_cons.1 ht' with rfl | ht'
        · exact absurd h' ht
        · exact ⟨t', ht', h'⟩
      rw [ih this]

theorem pointRows_spec {α : Type} (str : α → Str) :
    ∀ (xs ys zs : List α) (ds : List Str), xs.length = ys.length → xs.length = zs.length → xs.length = ds.length →
      (pointRows str xs ys zs ds).length = xs.length ∧
      ∀ (i : Nat) (x y z : α) (d : Str), xs[i]? = some x → ys[i]? = some y → zs[i]? = some z → ds[i]? = some d →
        (pointRows str xs ys zs ds)[i]? = some (str x ++ [' '] ++ str y ++ [' '] ++ str z ++ [' '] ++ d) := by
  intro xs
  induction xs with
  | nil => intro ys zs ds _ _ _; simp [pointRows]
  | cons x xs ih =>
    intro ys zs ds h1 h2 h3
    obtain ⟨y, ys, rfl⟩ : ∃ y ys', ys = y :: ys' := by
      cases ys with | nil => simp at h1 | cons y ys => exact ⟨y, ys, rfl⟩
    obtain ⟨z, zs, rfl⟩ : ∃ y ys', zs = y :: ys' := by
      cases zs with | nil => simp at h2 | cons y ys => exact ⟨y, ys, rfl⟩
    obtain ⟨d, ds, rfl⟩ : ∃ y ys', ds = y :: ys' := by
      cases ds with | nil => simp at h3 | cons y ys => exact ⟨y, ys, rfl⟩
    simp only [List.length_cons, Nat.add_right_cancel_iff] at h1 h2 h3
    obtain ⟨l, r⟩ := ih ys zs ds h1 h2 h3
    refine ⟨by simp [pointRows, l], ?_⟩
    intro i x' y' z' d' hx hy hz hd
    cases i with
    | zero => simp at hx hy hz hd; simp [pointRows, hx, hy, hz, hd]
    | succ i =>
      simp only [List.getElem?_cons_succ] at hx hy hz hd
      simp only [pointRows, List.getElem?_cons_succ]
      exact r i x' y' z' d' hx hy hz hd

end OutputUtilities

namespace LostPoints
open Py NeutUtilities

theorem marker_no_nl : '\n' ∉ marker := by decide

/-- The three fields of a line. -/
def fields (l : Str) : Str × Str × Str :=
  (strip (slice l 28 40), strip (slice l 43 55), strip (slice l 58 70))

/-- The three coordinates of a line, if all three are numbers. -/
def coords {F : Type} (flt : Str → Option F) (l : Str) : Option (F × F × F) :=
  match flt (fields l).1, flt (fields l).2.1, flt (fields l).2.2 with
  | some x, some y, some z => some (x, y, z)
  | _, _, _ => none

theorem fields_append_nl (l : Str) : fields (l ++ ['\n']) = fields l := by
  simp only [fields, strip_slice_append_blank l (c := '\n') (by decide)]

theorem scan_cons_pos {F : Type} (flt : Str → Option F) {l : Str} (rest : List Str) (h : hasSub marker l = true) :
    scan flt (l :: rest) = match coords flt l with
      | some p => (match scan flt rest with | .ok ps => .ok (p :: ps) | .error e => .error e)
      | none => .error .ValueError := by
  rw [scan, if_pos h]
  unfold coords fields
  dsimp only
  rcases flt (strip (slice l 28 40)) with _ | x <;> rcases flt (strip (slice l 43 55)) with _ | y <;>
    rcases flt (strip (slice l 58 70)) with _ | z <;> rfl

theorem scan_eq {F : Type} (flt : Str → Option F) (ls : List Str) :
    scan flt ls = match (ls.filter (fun l => hasSub marker l)).mapM (coords flt) with
      | some ps => .ok ps
      | none => .error .ValueError := by
  induction ls with
  | nil => rfl
  | cons l ls ih =>
    by_cases h : hasSub marker l = true
    · rw [scan_cons_pos flt _ h, List.filter_cons_of_pos h, List.mapM_cons, ih]
      cases coords flt l with
      | none => rfl
      | some p =>
        cases (ls.filter (fun l => hasSub marker l)).mapM (coords flt) with
        | none => rfl
        | some ps => rfl
    · rw [scan, if_neg h, List.filter_cons_of_neg h, ih]

/-- Scanning the raw lines of a text is scanning its lines without terminators. -/
theorem scan_keepLines {F : Type} (flt : Str → Option F) {ls : List Str} {last : Str}
    (h : ∀ l ∈ ls, '\n' ∉ l) (hl : '\n' ∉ last) :
    scan flt (keepLines (ls.flatMap (fun l => l ++ ['\n']) ++ last)) = scan flt (ls ++ [last]) := by
  rw [keepLines_flatMap h hl, scan_eq, scan_eq, List.filter_append, List.filter_append]
  have h1 : ∀ l : Str, hasSub marker (l ++ ['\n']) = hasSub marker l := by
    intro l
    rw [Bool.eq_iff_iff, hasSub_iff, hasSub_iff, infix_append_singleton marker_no_nl]
  have h2 : ∀ l : Str, coords flt (l ++ ['\n']) = coords flt l := by
    intro l; simp only [coords, fields_append_nl]
  have h3 : (ls.map (fun l => l ++ ['\n'])).filter (fun l => hasSub marker l) =
      (ls.filter (fun l => hasSub marker l)).map (fun l => l ++ ['\n']) := by
    rw [List.filter_map]; congr 1; congr 1; funext l; exact h1 l
  have h4 : (if last = [] then [] else [last]).filter (fun l => hasSub marker l) =
      [last].filter (fun l => hasSub marker l) := by
    split
    · next h => subst h; rfl
    · rfl
  have h5 : ∀ b : List Str, (((ls.filter (fun l => hasSub marker l)).map (fun l => l ++ ['\n'])) ++ b).mapM (coords flt) =
      ((ls.filter (fun l => hasSub marker l)) ++ b).mapM (coords flt) := by
    intro b
    generalize ls.filter (fun l => hasSub marker l) = m
    induction m with
    | nil => rfl
    | cons x xs ih => rw [List.map_cons, List.cons_append, List.cons_append, List.mapM_cons, List.mapM_cons, h2, ih]
  rw [h3, h4, h5]

end LostPoints
