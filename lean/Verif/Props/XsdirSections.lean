/- Property C308 of xsdir_reader.py: the sections of an xsdir file are kept apart. -/
import Verif.Props.Readers
import Verif.Props.XsdirThermal

set_option linter.unusedSectionVars false

namespace Props
open Py Xsdir NeutUtilities
variable {F : Type}

/-! ### C308: the sections of an xsdir file are kept apart -/

/-- C308 (violated): the directory does not end where the thermal scattering data begin, so every entry of the thermal
    scattering data is an entry of the directory too. -/
theorem C308_thermal_violated (flt : Str → Option F) (fs : FS) (fpath : Str) (xs : XSDir F) (pre mid sec : List Str) (dl hl : Str)
    (hok : (readXsdir flt fpath fs).1 = .ok xs) (hlines : (getLines fpath fs).1 = .ok (pre ++ dl :: (mid ++ hl :: sec)))
    (hdl : p!"directory" <+: strip dl) (hpre : ∀ l ∈ pre, ¬ p!"directory" <+: strip l) {l k : Str} {v : List Str}
    (hl' : l ∈ sec) (he : ThermalEntry l k v) (hnd : ¬ p!"directory" <+: strip l) : k ∈ xs.directory.keys :=
  ((C24_directory flt fs fpath xs pre (mid ++ hl :: sec) dl hok hlines hdl hpre).2.1 k).2
    ⟨l, by simp [hl'], v, hnd, he.2.2.1, he.2.2.2⟩

/-- C308 (violated): nor do the thermal scattering data end where the directory begins, so the last entry of the directory is
    an entry of the thermal scattering data too if the directory comes behind them. -/
theorem C308_directory_violated (flt : Str → Option F) (fs : FS) (fpath : Str) (xs : XSDir F) (pre mid a : List Str) (dl hl l k : Str) (v : List Str)
    (hok : (readXsdir flt fpath fs).1 = .ok xs) (hlines : (getLines fpath fs).1 = .ok (pre ++ hl :: (mid ++ dl :: (a ++ [l]))))
    (hhl : ThermalHead hl) (hpre : ∀ l ∈ pre, ¬ ThermalHead l) (he : DirEntry l k v) (hnt : ¬ ThermalHead l) (hnc : ¬ p!"#" <+: strip l) :
    xs.thermal.get k = some v :=
  ((C137_thermal flt fs fpath xs pre (mid ++ dl :: (a ++ [l])) hl hok hlines hpre hhl).1 k v).2
    ⟨mid ++ dl :: a, l, [], by simp, ⟨hnt, hnc, he.2.1, he.2.2⟩, by simp⟩

/-- C308 (part that holds): what stands in front of the directory is not in the directory, what stands in front of the thermal
    scattering data is not in those, and a section that the file does not have is empty. Missing: what stands behind a section. -/
theorem C308_front_partial (flt : Str → Option F) (fs : FS) (fpath : Str) (xs : XSDir F) (lines : List Str)
    (hok : (readXsdir flt fpath fs).1 = .ok xs) (hlines : (getLines fpath fs).1 = .ok lines) :
    (∀ k v, xs.directory.get k = some v → ∃ a dl b l c, lines = a ++ dl :: (b ++ l :: c) ∧ p!"directory" <+: strip dl ∧ DirEntry l k v) ∧
    (∀ k v, xs.thermal.get k = some v → ∃ a hl b l c, lines = a ++ hl :: (b ++ l :: c) ∧ ThermalHead hl ∧ ThermalEntry l k v) := by
  classical
  have first : ∀ P : Str → Prop, (∀ l ∈ lines, ¬ P l) ∨ ∃ pre h sec, lines = pre ++ h :: sec ∧ P h ∧ ∀ l ∈ pre, ¬ P l := by
    intro P
    clear hlines
    induction lines with
    | nil => exact .inl (by simp)
    | cons x xs ih =>
      by_cases hx : P x
      · exact .inr ⟨[], x, xs, rfl, hx, by simp⟩
      · rcases ih with ih | ⟨pre, h, sec, rfl, h1, h2⟩
        · exact .inl (by simpa [hx] using ih)
        · exact .inr ⟨x :: pre, h, sec, rfl, h1, by simpa [hx] using h2⟩
  constructor
  · intro k v hk
    rcases first (fun l => p!"directory" <+: strip l) with h | ⟨pre, dl, sec, rfl, h1, h2⟩
    · rw [C24_no_directory flt fs fpath xs lines hok hlines h] at hk
      simp [Dict.get] at hk
    · obtain ⟨a, l, b, rfl, h3, _⟩ := ((C24_directory flt fs fpath xs pre sec dl hok hlines h1 h2).1 k v).1 hk
      exact ⟨pre, dl, a, l, b, rfl, h1, h3⟩
  · intro k v hk
    rcases first ThermalHead with h | ⟨pre, hl, sec, rfl, h1, h2⟩
    · rw [C137_no_thermal flt fs fpath xs lines hok hlines h] at hk
      simp [Dict.get] at hk
    · obtain ⟨a, l, b, rfl, h3, _⟩ := ((C137_thermal flt fs fpath xs pre sec hl hok hlines h2 h1).1 k v).1 hk
      exact ⟨pre, hl, a, l, b, rfl, h1, h3⟩

example : ((readXsdir pyNat p!"f" (exFS p!"directory\n1001.60c 9 e\nsab\nlwtr.10t 1 t\n")).1.map (fun xs => (xs.directory, xs.thermal))) =
    .ok ([(p!"1001.60c", [p!"9", p!"e"]), (p!"lwtr.10t", [p!"1", p!"t"])], [(p!"lwtr.10t", [p!"1", p!"t"])]) := by rfl
example : ((readXsdir pyNat p!"f" (exFS p!"sab\nlwtr.10t 1 t\ndirectory\n1001.60c 9 e\n")).1.map (fun xs => (xs.directory, xs.thermal))) =
    .ok ([(p!"1001.60c", [p!"9", p!"e"])], [(p!"lwtr.10t", [p!"1", p!"t"]), (p!"1001.60c", [p!"9", p!"e"])]) := by rfl
example : ThermalEntry p!"lwtr.10t 1 t" p!"lwtr.10t" [p!"1", p!"t"] ∧ DirEntry p!"1001.60c 9 e" p!"1001.60c" [p!"9", p!"e"] := by
  unfold ThermalEntry DirEntry ThermalHead; simp only [isWords_iff]; decide

end Props
