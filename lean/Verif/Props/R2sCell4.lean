/- C109: a FILES file that lies in the folder of the cell itself. -/
import Verif.Props.R2sCell3

set_option linter.unusedSectionVars false

namespace Props
open Py NeutUtilities R2sCell

variable {F : Type}

private theorem put_other (fs : FS) {p q : Str} (n : Node) (h : q ≠ p) : (fs.put p n).node q = fs.node q := if_neg h

private theorem put_same (fs : FS) (p : Str) (n : Node) : (fs.put p n).node p = some n := if_pos rfl

/-- The copy: FILES has the contents that the source had before, wherever the source lies, unless it is one of the three inputs that are
    written first. -/
theorem C109_copy {path : Str} {inp : Inputs F} {fs fs' : FS} (h : fispactSetup path inp fs = (.ok (), fs')) :
    ∃ src c, inp.filesFile = .str src ∧ fs'.node (path ++ p!"/FILES") = some (.file c) ∧
      (src ≠ path ++ p!"/collapse.i" → src ≠ path ++ p!"/array.i" → src ≠ path ++ p!"/" ++ path ++ p!".i" → fs.node src = some (.file c)) := by
  obtain ⟨fs1, src, c, -, hs, hne, -, hn, -, rfl, rfl⟩ := r2s_setup_run h
  refine ⟨src, c, hs, ?_, ?_⟩
  · rw [put_other _ _ (fun h' => absurd (List.append_cancel_left h') (by decide)), put_same]
  · intro n1 n2 n3
    rw [put_other _ _ n3, put_other _ _ n2, put_other _ _ n1] at hn
    by_contra hne'
    have hd := ((C109_folder path fs).2.2.1 src (by rw [hn]; exact fun h' => hne' h'.symm)).2.2
    rw [hn] at hd
    cases hd

/-- A FILES file that is in place already stops the set-up: copying a file onto itself raises. -/
theorem C109_in_place_violated {path : Str} {inp : Inputs F} (hs : inp.filesFile = .str (path ++ p!"/FILES")) (fs : FS) :
    ∃ e, (fispactSetup path inp fs).1 = .error e := by
  rcases hr : fispactSetup path inp fs with ⟨r, fs'⟩
  cases r with
  | error e => exact ⟨e, rfl⟩
  | ok u =>
    obtain ⟨fs1, src, c, -, hs', hne, -⟩ := r2s_setup_run hr
    rw [hs] at hs'
    cases hs'
    exact absurd rfl hne

/-- A folder with a source of another name in it. -/
private def inside : FS := ⟨fun q => if q = p!"c1" then some .dir else if q = p!"c1/lib" ∨ q = p!"c1/FILES" then some (.file p!"ab") else none, fun _ => true⟩

example : (fispactSetup p!"c1" ({ filesFile := .str p!"c1/lib" } : Inputs ℚ) inside).1 = .ok () ∧
    (fispactSetup p!"c1" ({ filesFile := .str p!"c1/lib" } : Inputs ℚ) inside).2.node p!"c1/FILES" = some (.file p!"ab") := by decide +kernel

example : (fispactSetup p!"c1" ({ filesFile := .str p!"c1/FILES" } : Inputs ℚ) inside).1 = .error .OSError := by decide +kernel

/-- The main input as FILES file: what is copied is its new text. -/
example : (fispactSetup p!"c1" ({ filesFile := .str p!"c1/c1.i" } : Inputs ℚ) inside).2.node p!"c1/FILES" = some (.file []) := by decide +kernel

end Props
