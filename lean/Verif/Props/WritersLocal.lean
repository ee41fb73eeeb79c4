/-
C242: every function that writes a file changes that file only, and leaves everything as it was when it fails.
-/
import Verif.Props.ReadersLocal
import Verif.Model.OutputUtilities
import Verif.Model.FluxesWriter
import Verif.Model.Misc2

namespace Props
open Py NeutUtilities
variable {α β : Type}

/-- `m` changes the file `p` only, and nothing at all if it raises. -/
structure WritesOnly (p : Str) (m : PyM α) : Prop where
  others : ∀ fs, (m fs).2.perm = fs.perm ∧ ∀ q, q ≠ p → (m fs).2.node q = fs.node q
  failed : ∀ fs e, (m fs).1 = .error e → (m fs).2 = fs
  kind : ∀ fs, (m fs).2.node p = fs.node p ∨ ∃ c, (m fs).2.node p = some (.file c)

private theorem wo_keeps {p : Str} {m : PyM α} (h : ∀ fs, (m fs).2 = fs) : WritesOnly p m where
  others fs := by rw [h]; exact ⟨rfl, fun _ _ => rfl⟩
  failed fs _ _ := h fs
  kind fs := Or.inl (by rw [h])

private theorem wo_bind {p : Str} {m : PyM α} {f : α → PyM β} (h : ∀ fs, (m fs).2 = fs) (hf : ∀ a, WritesOnly p (f a)) :
    WritesOnly p (m >>= f) := by
  have key : ∀ fs, (∃ e, (m >>= f) fs = (.error e, fs)) ∨ ∃ a, (m >>= f) fs = f a fs := by
    intro fs
    have := h fs
    rw [PyM.bind_run]
    rcases hm : m fs with ⟨r, fs1⟩
    rw [hm] at this
    cases this
    cases r with
    | error e => exact Or.inl ⟨e, rfl⟩
    | ok a => exact Or.inr ⟨a, rfl⟩
  constructor
  · intro fs
    rcases key fs with ⟨e, he⟩ | ⟨a, ha⟩
    · rw [he]; exact ⟨rfl, fun _ _ => rfl⟩
    · rw [ha]; exact (hf a).others fs
  · intro fs e
    rcases key fs with ⟨e, he⟩ | ⟨a, ha⟩
    · rw [he]; exact fun _ => rfl
    · rw [ha]; exact (hf a).failed fs e
  · intro fs
    rcases key fs with ⟨e, he⟩ | ⟨a, ha⟩
    · rw [he]; exact Or.inl rfl
    · rw [ha]; exact (hf a).kind fs

private theorem wo_text (p c : Str) : WritesOnly p (writeText p c) := by
  constructor
  · intro fs
    unfold writeText
    split
    · refine ⟨rfl, fun q hq => ?_⟩
      show (if q = p then _ else fs.node q) = _
      rw [if_neg hq]
    · exact ⟨rfl, fun _ _ => rfl⟩
  · intro fs e
    unfold writeText
    split
    · intro h; cases h
    · intro _; rfl
  · intro fs
    unfold writeText
    split
    · right
      refine ⟨c, ?_⟩
      show (if p = p then _ else fs.node p) = _
      rw [if_pos rfl]
    · exact Or.inl rfl

private theorem keeps_lift (x : Except Err α) : ∀ fs, (PyM.lift x fs).2 = fs := by
  intro fs; rfl

private theorem wo_then {p : Str} {m : PyM α} {b : β} (h : WritesOnly p m) : WritesOnly p (m >>= fun _ => pure b) := by
  have key : ∀ fs, ((m >>= fun _ => pure b) fs).2 = (m fs).2 ∧ ∀ e, ((m >>= fun _ => pure b) fs).1 = .error e → (m fs).1 = .error e := by
    intro fs
    rw [PyM.bind_run]
    rcases m fs with ⟨r, fs1⟩
    cases r with
    | error e => exact ⟨rfl, fun e' h => by cases h; rfl⟩
    | ok a => exact ⟨rfl, fun e' h => by cases h⟩
  refine ⟨fun fs => ?_, fun fs e he => ?_, fun fs => ?_⟩
  · rw [(key fs).1]; exact h.others fs
  · rw [(key fs).1]; exact h.failed fs e ((key fs).2 e he)
  · rw [(key fs).1]; exact h.kind fs

/-- neut_utilities.py `write_lines`. -/
theorem C242_write_lines (p : Str) (lines : List Str) : WritesOnly p (writeLines p lines) := wo_text _ _

/-- neut_utilities.py `text_replace`. -/
theorem C242_text_replace (p old new : Str) : WritesOnly p (textReplace p old new) := by
  refine wo_bind (fun fs => ?_) (fun _ => wo_text _ _)
  unfold readText
  split <;> rfl

/-- output_utilities.py `csv_out`. -/
theorem C242_csv_out (str : α → Str) (data : OutputUtilities.Data α) (p : Str) : WritesOnly p (OutputUtilities.csvOut str data p) :=
  wo_bind (keeps_lift _) (fun _ => C242_write_lines _ _)

/-- output_utilities.py `html_f4_tab_out`. -/
theorem C242_html_f4_tab_out (str : α → Str) (data : OutputUtilities.Data α) (p : Str) : WritesOnly p (OutputUtilities.htmlF4TabOut str data p) :=
  wo_bind (keeps_lift _) (fun _ => wo_text _ _)

/-- output_utilities.py `html_output`. -/
theorem C242_html_output (o : OutputUtilities.HtmlObject) (p : Str) : WritesOnly p (OutputUtilities.htmlOutput o p) :=
  wo_bind (keeps_lift _) (fun _ => wo_keeps (fun _ => rfl))

/-- output_utilities.py `output_points`: the name of the file is the given one with .3d behind it. -/
theorem C242_output_points (str : α → Str) (strD : β → Str) (xs ys zs : List α) (data : Option (List β)) (p : Str) :
    WritesOnly (p ++ p!".3d") (OutputUtilities.outputPoints str strD xs ys zs data p) := by
  unfold OutputUtilities.outputPoints
  split
  · exact wo_keeps (fun _ => rfl)
  · split
    · split
      · exact wo_keeps (fun _ => rfl)
      · exact C242_write_lines _ _
    · exact C242_write_lines _ _

/-- lost_points.py `output_lost_points`; the output may be the input. -/
theorem C242_lost_points {F : Type} (flt : Str → Option F) (str : F → Str) (path p : Str) :
    WritesOnly (p ++ p!".3d") (LostPoints.outputLostPoints flt str path p) := by
  refine wo_bind (fun fs => ?_) (fun _ => wo_bind (keeps_lift _) (fun pts => ?_))
  · unfold readText
    split <;> rfl
  · split
    · exact wo_then (C242_output_points ..)
    · exact wo_keeps (fun _ => rfl)

/-- ofile_reduce.py `reduce_ofile`; input and output may be the same file. -/
theorem C242_reduce_ofile (infile ofile : Str) : WritesOnly ofile (OfileReduce.reduceOfile infile ofile) :=
  wo_bind (C241_get_lines infile).keeps (fun _ => wo_bind (keeps_lift _) (fun _ => C242_write_lines _ _))

/-- fispact_fluxes_writer.py `write_fluxes_file`. -/
theorem C242_fluxes {K : Type} (fmt : K → Str) (p : Str) (data : Option (List K)) : WritesOnly p (FluxesWriter.writeFluxesFile fmt p data) := by
  rcases data with _ | d
  · exact wo_keeps (fun _ => rfl)
  rcases d with _ | ⟨x, xs⟩
  · exact wo_keeps (fun _ => rfl)
  have h := C242_write_lines p ((x :: xs).map fmt)
  have key : ∀ fs, (FluxesWriter.writeFluxesFile fmt p (some (x :: xs)) fs).2 = (writeLines p ((x :: xs).map fmt) fs).2 ∧
      ∀ e, (FluxesWriter.writeFluxesFile fmt p (some (x :: xs)) fs).1 = .error e → ∃ e', (writeLines p ((x :: xs).map fmt) fs).1 = .error e' := by
    intro fs
    unfold FluxesWriter.writeFluxesFile
    simp only
    rcases writeLines p ((x :: xs).map fmt) fs with ⟨r, fs1⟩
    cases r with
    | error e => exact ⟨rfl, fun _ _ => ⟨e, rfl⟩⟩
    | ok a => exact ⟨rfl, fun _ h => by cases h⟩
  refine ⟨fun fs => ?_, fun fs e he => ?_, fun fs => ?_⟩
  · rw [(key fs).1]; exact h.others fs
  · obtain ⟨e', he'⟩ := (key fs).2 e he
    rw [(key fs).1]; exact h.failed fs e' he'
  · rw [(key fs).1]; exact h.kind fs

/-- fispact_fluxes_writer.py as a program. -/
theorem C242_fluxes_program (flt : Str → Option (Option ℚ)) (fmt : ℚ → Str) (p : Str) (group energy : Option Str) :
    WritesOnly p (FluxesWriter.main flt fmt p group energy) :=
  wo_bind (keeps_lift _) (fun _ => wo_bind (keeps_lift _) (fun _ => C242_fluxes _ _ _))

/-- mcnp_output_reader.py `print_tally_lines_to_file`: the name of the file is the given one, the number and .txt. -/
theorem C242_tally_lines (debug : Bool) (lines : List Str) (p : Str) (n : Int) :
    WritesOnly (p ++ intStr n ++ p!".txt") (McnpOutput.printTallyLinesToFile debug lines p n) := by
  unfold McnpOutput.printTallyLinesToFile
  split
  · exact C242_write_lines _ _
  · exact wo_keeps (fun _ => rfl)

/-- r2s_cell.py `write_collapse`, `write_array`, `write_fispact`, `write_fluxes`. -/
theorem C242_activation (p : Str) (groups : Int) : WritesOnly p (R2sCell.writeCollapse p groups) ∧ WritesOnly p (R2sCell.writeArray p) ∧
    WritesOnly p (R2sCell.writeFispact p) ∧ WritesOnly p (R2sCell.writeFluxes p) :=
  ⟨C242_write_lines _ _, C242_write_lines _ _, C242_write_lines _ _, C242_write_lines _ _⟩

/-- r2s_cell.py `copy_files_file`. -/
theorem C242_copy {F : Type} (inp : R2sCell.Inputs F) (p : Str) : WritesOnly (p ++ p!"/FILES") (R2sCell.copyFilesFile inp p) := by
  refine wo_bind (keeps_lift _) (fun src => wo_bind (fun _ => rfl) (fun fs => ?_))
  split
  · refine wo_bind (fun _ => rfl) (fun fs => ?_)
    split
    · split
      · exact wo_keeps (fun _ => rfl)
      · exact wo_text _ _
    · exact wo_keeps (fun _ => rfl)
    · exact wo_keeps (fun _ => rfl)
  · exact wo_keeps (fun _ => rfl)

example (fs : FS) : (writeLines p!"a" [p!"x"] fs).2.node p!"b" = fs.node p!"b" :=
  ((C242_write_lines p!"a" [p!"x"]).others fs).2 p!"b" (by decide)

/-- A tally with fewer results than cells: the old table stays. -/
example (fs : FS) : (OutputUtilities.csvOut (α := Str) id (.one ⟨p!"4", [p!"1"], [], []⟩) p!"t.csv" fs).2 = fs :=
  (C242_csv_out _ _ _).failed fs .IndexError rfl

end Props
