/- Property C309 of xsdir_reader.py: upper and lower case letters of an xsdir file. -/
import Verif.Props.Readers
import Verif.Props.XsdirThermal

set_option linter.unusedSectionVars false

namespace Props
open Py Xsdir NeutUtilities
variable {F : Type}

/-! ### C309: upper and lower case letters of an xsdir file -/

/-- C309 (part that holds): the path of the data is found, and the same, however the line is written. Missing: the headings of
    the sections. -/
theorem C309_datapath_partial : ∀ lines lines' : List Str, lines.map lower = lines'.map lower → processDatapath lines = processDatapath lines'
  | [], [], _ => rfl
  | l :: ls, m :: ms, h => by
    simp only [List.map_cons, List.cons.injEq] at h
    unfold processDatapath
    rw [h.1, C309_datapath_partial ls ms h.2]
  | [], _ :: _, h => by simp at h
  | _ :: _, [], h => by simp at h

/-- C309 (violated): a directory whose heading is written with a capital letter is not found, whatever it contains. -/
theorem C309_directory_violated (flt : Str → Option F) (fs : FS) (fpath : Str) (xs : XSDir F) (lines : List Str)
    (hok : (readXsdir flt fpath fs).1 = .ok xs) (hlines : (getLines fpath fs).1 = .ok lines)
    (hcap : ∀ l ∈ lines, p!"directory" <+: lower (strip l) → (strip l)[0]? = some 'D') : xs.directory = [] := by
  refine C24_no_directory flt fs fpath xs lines hok hlines fun l hl h => ?_
  obtain ⟨r, hr⟩ := h
  have := hcap l hl ⟨lower r, by rw [← hr]; simp [lower]⟩
  rw [← hr] at this
  simp at this

/-- C309 (violated): nor are atomic weight ratios whose heading is written with a capital letter. -/
theorem C309_weights_violated (flt : Str → Option F) (lines : List Str)
    (hcap : ∀ l ∈ lines, p!"atomic" <+: lower (strip l) → (strip l)[0]? = some 'A') : processAwr flt lines = .ok [] := by
  have := awrLoop_false flt [] lines [] (fun l hl => by
    rw [← Bool.not_eq_true, startsWith_iff]
    rintro ⟨r, hr⟩
    have := hcap l hl ⟨lower r, by rw [← hr]; simp [lower]⟩
    rw [← hr] at this
    simp at this)
  rw [processAwr, ← List.append_nil lines, this]
  rfl

example : ((readXsdir pyNat p!"f" (exFS p!"DATAPATH=/x\nATOMIC weight ratios\nH 1001 1\nDirectory\n1001.60c 9 e\n")).1.map
    (fun xs => (xs.datapath, xs.awr, xs.directory))) = .ok (some p!"/x", [], []) := by rfl
example : ((readXsdir pyNat p!"f" (exFS p!"datapath=/x\natomic weight ratios\nH 1001 1\ndirectory\n1001.60c 9 e\n")).1.map
    (fun xs => (xs.datapath, xs.awr, xs.directory))) = .ok (some p!"/x", [(p!"1001", 1)], [(p!"1001.60c", [p!"9", p!"e"])]) := by rfl

end Props
