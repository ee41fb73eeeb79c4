/-
Further theorems for claims whose first theorems left some wrong programs unnoticed (see seeded/LOG.jsonl).
-/
import Verif.Spec.Elements
import Verif.Props.R2sCell
import Verif.Props.Misc
import Verif.Props.Constants
import Verif.Props.FluxesWriter
import Verif.Props.McnpAnalysis
import Verif.Props.FispactAnalysis

set_option linter.unusedSimpArgs false
set_option linter.unusedSectionVars false

namespace Props
open Py NeutUtilities

/-! ### C33: the symbols are the chemical symbols -/

/-- `Z_dict` gives every chemical symbol its atomic number and knows no other symbol. -/
theorem C33_symbols (s : Str) (z : Nat) : Constants.zDict.get s = some z ↔ 1 ≤ z ∧ Spec.elements[z - 1]? = some s := by
  have hkeys : Constants.zDict = Spec.elements.zipIdx.map (fun e => (e.1, e.2 + 1)) := by decide +kernel
  have hnd : Constants.zDict.keys.Nodup := C33_elements.1
  have hmem : Constants.zDict.get s = some z ↔ (s, z) ∈ Constants.zDict := by
    constructor
    · intro h
      unfold Dict.get at h
      rw [Option.map_eq_some_iff] at h
      obtain ⟨⟨a, b⟩, h1, h2⟩ := h
      have h3 := List.find?_some h1
      simp at h3 h2
      subst h3 h2
      exact List.mem_of_find?_eq_some h1
    · intro h
      have hall : Constants.zDict.all (fun e => decide (Constants.zDict.get e.1 = some e.2)) = true := by decide +kernel
      rw [List.all_eq_true] at hall
      simpa using hall _ h
  rw [hmem, hkeys, List.mem_map]
  constructor
  · rintro ⟨⟨a, i⟩, h1, h2⟩
    rw [Prod.mk.injEq] at h2
    obtain ⟨rfl, rfl⟩ := h2
    rw [List.mem_zipIdx_iff_getElem?] at h1
    exact ⟨by simp, by simpa using h1⟩
  · rintro ⟨h1, h2⟩
    refine ⟨(s, z - 1), ?_, by simp; omega⟩
    rw [List.mem_zipIdx_iff_getElem?]
    exact h2

example : Spec.elements.length = 118 ∧ Spec.elements[25]? = some p!"Fe" ∧ Constants.zDict.get p!"Fe" = some 26 := by decide +kernel

/-! ### C157: division by zero -/

/-- Zero has no wavelength and no energy: ZeroDivisionError; every other number is converted. -/
theorem C157_zero {K : Type} [Field K] [DecidableEq K] (x : K) :
    (Constants.eVToWavelengthPhoton x = .error .ZeroDivisionError ↔ x = 0) ∧
    (Constants.wavelengthToMeVNeutron x = .error .ZeroDivisionError ↔ x = 0) := by
  unfold Constants.eVToWavelengthPhoton Constants.wavelengthToMeVNeutron
  by_cases h : x = 0
  · simp [h]
  · simp [h]

/-! ### C34, C37, C38: rejected arguments -/

/-- Nothing that is not a list of boundaries or values is accepted; NaN is in no group. -/
theorem C34_rejected {K : Type} [LinearOrder K] (g : K) (gs : List K) (e : Option K) :
    FluxesWriter.getGroupPos (none : Option (List K)) e = .error .ValueError ∧
    FluxesWriter.getGroupPos (some ([] : List K)) e = .error .ValueError ∧
    FluxesWriter.getGroupPos (some (g :: gs)) none = .ok (-1) ∧
    FluxesWriter.checkUpperBound (some (g :: gs)) none = .ok true := ⟨rfl, rfl, rfl, rfl⟩

theorem C37_rejected {K : Type} [LinearOrder K] [One K] :
    FluxesWriter.convertMcnpSpect (none : Option (List K)) = .error .ValueError := rfl

/-- No data raise ValueError; a path that cannot be written raises OSError; in both cases nothing is changed. -/
theorem C38_write_errors {K : Type} (fmt : K → Str) (path : Str) (data : Option (List K)) (fs : FS) :
    ((data = none ∨ data = some []) → FluxesWriter.writeFluxesFile fmt path data fs = (.error .ValueError, fs)) ∧
    (∀ d, data = some d → d ≠ [] → fs.canWrite path = false → FluxesWriter.writeFluxesFile fmt path data fs = (.error .OSError, fs)) := by
  constructor
  · rintro (rfl | rfl) <;> rfl
  · rintro d rfl hne hw
    cases d with
    | nil => exact absurd rfl hne
    | cons x xs =>
      unfold FluxesWriter.writeFluxesFile
      simp only
      rw [writeLines_err _ hw]

/-- Without a known group name, without an energy, or with one that is no number (including NaN), the program raises ValueError and writes
    nothing. -/
theorem C38_rejected (flt : Str → Option (Option ℚ)) (fmt : ℚ → Str) (output : Str) (group energy : Option Str) (fs : FS)
    (h : ¬ (group = some p!"709" ∨ group = some p!"162") ∨ energy = none ∨ (∃ s, energy = some s ∧ (flt s = none ∨ flt s = some none))) :
    FluxesWriter.main flt fmt output group energy fs = (.error .ValueError, fs) := by
  unfold FluxesWriter.main
  by_cases hg : FluxesWriter.getGroupStruct group = none
  · simp only [hg]
    exact PyM.bind_err (m := PyM.lift _) rfl
  · obtain ⟨g, hg'⟩ := Option.ne_none_iff_exists'.1 hg
    have hknown : group = some p!"709" ∨ group = some p!"162" := by
      by_contra hx; exact hg ((C35_names group).2.2 hx)
    simp only [hg']
    have hgne : ∃ x xs, g = x :: xs := by
      obtain ⟨h1, h2, h3, h4, _⟩ := C35_tables
      cases hgs : g with
      | cons x xs => exact ⟨x, xs, rfl⟩
      | nil =>
        subst hgs
        rcases hknown with rfl | rfl
        · rw [h2] at hg'; rw [Option.some.inj hg'] at h4; simp at h4
        · rw [h1] at hg'; rw [Option.some.inj hg'] at h3; simp at h3
    rcases h with h | rfl | ⟨s, rfl, h | h⟩
    · exact absurd hknown h
    · exact PyM.bind_err (m := PyM.lift _) rfl
    · simp only [h]; exact PyM.bind_err (m := PyM.lift _) rfl
    · obtain ⟨x, xs, rfl⟩ := hgne
      simp only [h]
      rw [PyM.bind_ok (m := PyM.lift (FluxesWriter.getGroupPos (some (x :: xs)) none)) (a := (-1 : Int)) (fs' := fs) rfl]
      exact PyM.bind_err (m := PyM.lift _) rfl

/-! ### C41: what is raised -/

/-- A flux array without a row for the chosen energy raises IndexError; a row or a time array without entries raises ValueError. -/
theorem C41_errors {K : Type} [Field K] [LinearOrder K] [IsStrictOrderedRing K] (target : K) (energies times : List K) (results : List (List K)) (he : energies ≠ []) :
    (results.length = 0 → McnpAnalysis.findPeakTime target energies times results = .error .IndexError) ∧
    ((∀ row ∈ results, row = []) ∨ times = [] → results.length = energies.length → McnpAnalysis.findPeakTime target energies times results = .error .ValueError) := by
  obtain ⟨i, hi, hlt⟩ := argmin_spec (l := energies.map (fun e => |e - target|)) (by simpa using he)
  have hil : i < energies.length := by
    obtain ⟨v, hv, _⟩ := hlt
    have := (List.getElem?_eq_some_iff.1 hv).1
    simpa using this
  unfold McnpAnalysis.findPeakTime
  rw [hi]
  simp only [ex_ok_bind]
  constructor
  · intro h
    rw [List.length_eq_zero_iff.1 h]
    rfl
  · intro h hl
    have hir : i < results.length := by omega
    rw [List.getElem?_eq_getElem hir]
    simp only [orErr, ex_ok_bind]
    have : (results[i].take times.length) = [] := by
      rcases h with h | h
      · rw [h _ (List.getElem_mem hir)]; simp
      · rw [h]; simp
    rw [this, argmax_nil]
    rfl

example : McnpAnalysis.findPeakTime (1 : ℚ) [1] [1] [] = .error .IndexError ∧ McnpAnalysis.findPeakTime (1 : ℚ) [1] [1] [[]] = .error .ValueError := by
  decide +kernel

/-! ### C131: tables without the column -/

/-- Something that is no table, or a table without the column "nuclide", raises ValueError, in the test of presence and in the series. -/
theorem C131_rejected {K : Type} [Field K] [LinearOrder K] [IsStrictOrderedRing K] (get : FispactAnalysis.Row K → K) (nuc : Str) (pre post : List (FispactAnalysis.Arg K))
    (x : FispactAnalysis.Arg K) (hx : x = .other ∨ ∃ cols rows, x = .frame cols rows ∧ p!"nuclide" ∉ cols)
    (hpre : ∀ y ∈ pre, ∃ cols rows, y = .frame cols rows ∧ p!"nuclide" ∈ cols) :
    FispactAnalysis.isNucPresent x nuc = .error .ValueError ∧ FispactAnalysis.nucValues get nuc (pre ++ x :: post) = .error .ValueError := by
  have h1 : FispactAnalysis.isNucPresent x nuc = .error .ValueError := by
    rcases hx with rfl | ⟨cols, rows, rfl, h⟩
    · rfl
    · simp [FispactAnalysis.isNucPresent, h]
  refine ⟨h1, ?_⟩
  induction pre with
  | nil =>
    unfold FispactAnalysis.nucValues
    rw [List.nil_append]
    apply mapM_except_cons_err
    rw [h1]
  | cons y ys ih =>
    have ih := ih (fun z hz => hpre z (by simp [hz]))
    obtain ⟨cols, rows, rfl, hc⟩ := hpre y (by simp)
    obtain ⟨vals, hv, hl, _⟩ := C131_series get nuc [(cols, rows)] (by simpa using hc)
    cases vals with
    | nil => simp at hl
    | cons v vs =>
      unfold FispactAnalysis.nucValues at hv ih ⊢
      rw [List.map_cons, List.map_nil, mapM_except_ok_iff] at hv
      cases hv with
      | cons h _ =>
        rw [List.cons_append]
        refine (mapM_except_cons_ok (a := FispactAnalysis.Arg.frame cols rows) h).trans ?_
        rw [ih]
        rfl

end Props
