/-
C311: numbers of an MCNP input in the short form of Fortran, such as 1.5-3 for 1.5E-3.
-/
import Verif.Props.McnpInput2
import Verif.Props.McnpCells

set_option linter.unusedSectionVars false
set_option linter.unusedSimpArgs false

namespace Props
open Py NeutUtilities McnpInput Spec.Mcnp
variable {F : Type}

/-- A number with an exponent but without the letter E in front of it, as Fortran and MCNP read it: 1.5-3 is 1.5E-3. -/
def ShortNumber (s : Str) : Prop :=
  ∃ m e : Str, ∃ c : Char, s = m ++ c :: e ∧ (c = '-' ∨ c = '+') ∧ (∃ d, m.getLast? = some d ∧ (d.isDigit = true ∨ d = '.')) ∧ e ≠ [] ∧
    ∀ d ∈ e, d.isDigit = true

/-- Python's `float` does not read such numbers. -/
def RejectsShort (flt : Str → Option F) : Prop := ∀ s, ShortNumber s → flt s = none

/-- C311 is violated: a material card with such a fraction cannot be read, whatever else stands on it. -/
theorem C311_fraction_violated {flt : Str → Option F} (hflt : RejectsShort flt) (n : Nat) (lines : List Str) (first : Str) (body : List Str)
    (f : Str → List Str) (hf : ∀ s, Spec.IsWords s (f s)) (h : Card (MatHead n) lines first body)
    (hk : ∀ w ∈ cardWords f first body, '=' ∈ w → w.takeWhile (· ≠ '=') ∈ keywordNames) (es : List (Str × Str × F))
    (hes : ∀ e ∈ es, flt e.2.1 = some e.2.2) (z v : Str) (more : List Str)
    (hw : (cardWords f first body).filter (fun w => decide ('=' ∉ w)) = es.flatMap (fun e => [e.1, e.2.1]) ++ z :: v :: more)
    (hv : ShortNumber v) : readMaterialLines flt n lines = .error .ValueError :=
  ((C83_errors flt n lines first body f hf h).2 hk es hes).2 z v more hw (hflt v hv)

private theorem step_fails {flt : Str → Option F} (st : CellSt F) {l w0 w1 w2 : Str} {geom : List Str} {m : Int}
    (hl : ∃ c rest, l = c :: rest ∧ c.isDigit = true) (hm : pyInt w1 = some m) (h0 : m ≠ 0) (h2 : flt w2 = none)
    (hw : Spec.IsWords l (w0 :: w1 :: w2 :: geom)) : ∃ e, cellStep flt st l = .error e := by
  have hw' := splitWs_of_isWords hw
  have hs : ∃ e, startCell flt (splitOn ' ' (stringCleaner l)) = .error e := by
    rw [splitOn_stringCleaner (by rw [hw']; simp), hw']
    unfold startCell
    cases hk : pyInt w0 with
    | none => exact ⟨.ValueError, by simp [orErr, bind, Except.bind, hk]⟩
    | some k => exact ⟨.ValueError, by simp [orErr, bind, Except.bind, hk, hm, h0, h2]⟩
  obtain ⟨c, rest, rfl, hc⟩ := hl
  obtain ⟨e, he⟩ := hs
  have hd : isDigit c = true := hc
  unfold cellStep
  simp only [List.getElem?_cons_zero, orErr, ex_ok_bind, hd, if_true, he]
  cases st.cur with
  | none => exact ⟨e, rfl⟩
  | some cur =>
    cases hfin : finishCell flt st.dict cur with
    | error e' => exact ⟨e', by simp only [hfin]; rfl⟩
    | ok d => exact ⟨e, by simp only [hfin]; rfl⟩

/-- C311 is violated: a cell block with such a density cannot be read, whatever the other cells are. -/
theorem C311_density_violated {flt : Str → Option F} (hflt : RejectsShort flt) (pre post : List Str) {l w0 w1 w2 : Str} {geom : List Str} {m : Int}
    (hl : ∃ c rest, l = c :: rest ∧ c.isDigit = true) (hw : Spec.IsWords l (w0 :: w1 :: w2 :: geom)) (hm : pyInt w1 = some m) (h0 : m ≠ 0)
    (h2 : ShortNumber w2) : ∃ e, processCellBlock flt (pre ++ l :: post) = .error e := by
  unfold processCellBlock
  rw [List.foldlM_append]
  cases pre.foldlM (cellStep flt) ⟨[], none⟩ with
  | error e => exact ⟨e, rfl⟩
  | ok st =>
    obtain ⟨e, he⟩ := step_fails st hl hm h0 (hflt w2 h2) hw
    exact ⟨e, by rw [ex_ok_bind, List.foldlM_cons, he]; rfl⟩

/-- C311 (part that holds): a number that `float` reads is the density of its cell. Missing: numbers in the short form. -/
theorem C311_density_partial (flt : Str → Option F) {l w0 w1 w2 : Str} {geom : List Str} {n m : Int} {x : F}
    (hl : ∃ c rest, l = c :: rest ∧ c.isDigit = true) (hw : Spec.IsWords l (w0 :: w1 :: w2 :: geom)) (h0 : pyInt w0 = some n)
    (hm : pyInt w1 = some m) (hm0 : m ≠ 0) (h2 : flt w2 = some x) :
    startCell flt (splitOn ' ' (stringCleaner l)) = .ok (({ number := n, mat := m, density := some x } : Cell F), geom) :=
  startCell_head flt ⟨hl, w0, w1, h0, hm, .inr ⟨hm0, w2, x, rfl, h2, hw⟩⟩

/-- C311 (part that holds): so is a number that `float` reads the fraction of its nuclide. -/
theorem C311_fraction_partial (flt : Str → Option F) (n : Nat) (lines : List Str) (first : Str) (body : List Str)
    (f : Str → List Str) (hf : ∀ s, Spec.IsWords s (f s)) (h : Card (MatHead n) lines first body)
    (es : List (Str × Str × F)) (hes : ∀ e ∈ es, flt e.2.1 = some e.2.2)
    (hw : (cardWords f first body).filter (fun w => decide ('=' ∉ w)) = es.flatMap (fun e => [e.1, e.2.1]))
    (hk : ∀ w ∈ cardWords f first body, '=' ∈ w → w.takeWhile (· ≠ '=') ∈ keywordNames) :
    ∃ mat, readMaterialLines flt n lines = .ok mat ∧ ∀ z x, mat.composition.get z = some x ↔ LastWins (es.map (fun e => (e.1, e.2.2))) z x := by
  obtain ⟨mat, h1, _, h2, _⟩ := C83_material flt n lines first body f hf h es hes hw hk
  exact ⟨mat, h1, h2⟩

example : ShortNumber p!"1.5-3" ∧ ShortNumber p!"-7.8+1" :=
  ⟨⟨p!"1.5", p!"3", '-', by decide⟩, ⟨p!"-7.8", p!"1", '+', by decide⟩⟩
/-- 1.5E-3 is no such number: there is only one place for the sign. -/
example : ¬ ShortNumber p!"1.5E-3" := by
  rintro ⟨m, e, c, h, hc, ⟨d, hd, hd'⟩, -, he⟩
  have hlast : ∀ (m e : Str) (c : Char), p!"1.5E-3" = m ++ c :: e → (c = '-' ∨ c = '+') → m = p!"1.5E" := by
    intro m e c h hc
    match m, h with
    | [], h => rcases hc with rfl | rfl <;> simp at h
    | [a], h => rcases hc with rfl | rfl <;> simp at h
    | [a, b], h => rcases hc with rfl | rfl <;> simp at h
    | [a, b, x], h => rcases hc with rfl | rfl <;> simp at h
    | [a, b, x, y], h => simp at h; obtain ⟨rfl, rfl, rfl, rfl, -⟩ := h; rfl
    | [a, b, x, y, z], h => rcases hc with rfl | rfl <;> simp at h
    | a :: b :: x :: y :: z :: w :: m, h => simp at h
  rw [hlast m e c h hc] at hd
  simp at hd
  subst hd
  revert hd'
  decide
/-- A parser that accepts digits only is such a parser. -/
example : RejectsShort (fun s => if s.all (fun c => c.isDigit) then some s.length else none) := by
  rintro s ⟨m, e, c, rfl, hc, -, -, -⟩
  rcases hc with rfl | rfl <;> simp

end Props
