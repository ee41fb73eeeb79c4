/-
C241: every function that reads a file looks at the lines of that file and at nothing else, whatever their line ends, and changes nothing.
-/
import Verif.Proofs.PyM
import Verif.Model.Readers
import Verif.Model.McnpOutput
import Verif.Model.McnpInput
import Verif.Model.FispactOutput
import Verif.Model.MeshtalAnalysis
import Verif.Model.Misc
import Verif.Model.R2sCell
import Mathlib.Data.Rat.Floor

namespace Props
open Py

/-- `e` is a line end when `rest` comes behind it: LF, CR LF, or CR alone. -/
def LineEnd (e rest : Str) : Prop := e = ['\n'] ∨ e = ['\r', '\n'] ∨ e = ['\r'] ∧ rest.head? ≠ some '\n'

/-- Two texts that differ at most in the kind of their line ends. -/
inductive SameLines : Str → Str → Prop
  | nil : SameLines [] []
  | char {c : Char} {s t : Str} : c ≠ '\n' → c ≠ '\r' → SameLines s t → SameLines (c :: s) (c :: t)
  | ends {e e' s t : Str} : LineEnd e s → LineEnd e' t → SameLines s t → SameLines (e ++ s) (e' ++ t)

/-- `m` reads the file `p` and nothing else, and changes nothing. -/
structure ReadsOnly {α : Type} (p : Str) (m : PyM α) : Prop where
  keeps : ∀ fs, (m fs).2 = fs
  local_ : ∀ fs fs', fs.node p = fs'.node p → (m fs).1 = (m fs').1
  ends : ∀ fs fs' c c', fs.node p = some (.file c) → fs'.node p = some (.file c') → SameLines c c' → (m fs).1 = (m fs').1
  missing : ∀ fs, fs.node p = none → (m fs).1 = .error .FileNotFoundError
  dir : ∀ fs, fs.node p = some .dir → ∃ e, (m fs).1 = .error e

private theorem univNL_end {e s : Str} (h : LineEnd e s) : univNL (e ++ s) = '\n' :: univNL s := by
  rcases h with rfl | rfl | ⟨rfl, h⟩
  · simp [univNL]
  · simp [univNL]
  · cases s with
    | nil => simp [univNL]
    | cons a s =>
      have : a ≠ '\n' := by simpa using h
      simp [univNL, this]

theorem univNL_same {s t : Str} (h : SameLines s t) : univNL s = univNL t := by
  induction h with
  | nil => rfl
  | char h1 h2 _ ih =>
    rw [univNL, univNL, ih]
    all_goals first | exact h1 | exact h2 | simp_all
  | ends h1 h2 _ ih => rw [univNL_end h1, univNL_end h2, ih]

private theorem readsOnly_of {α : Type} {p : Str} {m : PyM α} (r : Str → Except Err α) (e : Err)
    (h : ∀ fs, m fs = match fs.node p with
      | none => (.error .FileNotFoundError, fs)
      | some .dir => (.error e, fs)
      | some (.file c) => (r (univNL c), fs)) : ReadsOnly p m where
  keeps fs := by
    rw [h]
    split <;> rfl
  local_ fs fs' hn := by
    rw [h, h, hn]
    rcases fs'.node p with _ | n
    · rfl
    · cases n <;> rfl
  ends fs fs' c c' h1 h2 hs := by
    rw [h, h, h1, h2]
    show r (univNL c) = r (univNL c')
    rw [univNL_same hs]
  missing fs hn := by rw [h, hn]
  dir fs hn := ⟨e, by rw [h, hn]⟩

private theorem lines_of {α : Type} {p : Str} (r : List Str → Except Err α) :
    ReadsOnly p (do let lines ← NeutUtilities.getLines p; PyM.lift (r lines)) := by
  refine readsOnly_of (fun t => r (splitlines t)) .OSError (fun fs => ?_)
  rw [PyM.bind_run]
  unfold NeutUtilities.getLines
  rw [PyM.bind_run]
  unfold readText
  rcases fs.node p with _ | n
  · rfl
  · cases n <;> rfl

/-- neut_utilities.py `get_lines`. -/
theorem C241_get_lines (p : Str) : ReadsOnly p (NeutUtilities.getLines p) := by
  refine readsOnly_of (fun t => .ok (splitlines t)) .OSError (fun fs => ?_)
  unfold NeutUtilities.getLines
  rw [PyM.bind_run]
  unfold readText
  rcases fs.node p with _ | n
  · rfl
  · cases n <;> rfl

/-- fispact_printlib_reader.py `read_fispact_printlib`. -/
theorem C241_printlib {F : Type} (flt : Str → Option F) (p : Str) : ReadsOnly p (Printlib.read flt p) := by
  refine readsOnly_of (fun t => match Printlib.scan flt ⟨[], none, false, false⟩ (keepLines t) with
    | .error _ => .error .OSError
    | .ok none => .error .UnboundLocalError
    | .ok (some rows) => .ok rows) .ValueError (fun fs => ?_)
  unfold Printlib.read
  rcases fs.node p with _ | n
  · rfl
  · cases n with
    | dir => rfl
    | file c =>
      simp only
      split <;> simp_all

/-- xsdir_reader.py `read_xsdir`. -/
theorem C241_xsdir {F : Type} (flt : Str → Option F) (p : Str) : ReadsOnly p (Xsdir.readXsdir flt p) := by
  refine readsOnly_of (fun t => do
    let dp ← Xsdir.processDatapath (splitlines t)
    let awr ← Xsdir.processAwr flt (splitlines t)
    pure { filePath := p, datapath := dp, awr := awr, directory := Xsdir.processDirectory (splitlines t),
           thermal := Xsdir.processThermal (splitlines t) }) .OSError (fun fs => ?_)
  unfold Xsdir.readXsdir NeutUtilities.getLines
  rw [PyM.bind_run, PyM.bind_run]
  unfold readText
  rcases fs.node p with _ | n
  · rfl
  · cases n with
    | dir => rfl
    | file c =>
      show (PyM.lift _ >>= fun _ => _) fs = _
      rw [PyM.bind_run]
      simp only [PyM.lift]
      rcases Xsdir.processDatapath (splitlines (univNL c)) with e | dp
      · rfl
      · show (PyM.lift _ >>= fun _ => _) fs = _
        rw [PyM.bind_run]
        simp only [PyM.lift]
        rcases Xsdir.processAwr flt (splitlines (univNL c)) with e | dp <;> rfl

/-- mcnp_ptrac_reader.py `read_ptrac`. -/
theorem C241_ptrac {F : Type} (flt : Str → Option F) (p : Str) : ReadsOnly p (Ptrac.readPtrac flt p) := lines_of _

/-- mcnp_output_reader.py `read_output_file`. -/
theorem C241_mcnp_output {F : Type} [LinearOrder F] (flt : Str → Option F) (minusOne : F) (enum : List Str → List Str) (p : Str) :
    ReadsOnly p (McnpOutput.readOutputFile flt minusOne enum p) := lines_of _

/-- mcnp_input_reader.py `read_mcnp_input`. -/
theorem C241_mcnp_input {F : Type} (flt : Str → Option F) (p : Str) : ReadsOnly p (McnpInput.readMcnpInput flt p) := lines_of _

/-- mcnp_run_plot.py `plot_nps_stats`, up to the figure. -/
theorem C241_run_log {F T : Type} (flt : Str → Option F) (date : Str → Option T) (p : Str) : ReadsOnly p (RunPlot.plotNpsStats flt date p) := lines_of _

/-- fispact_output_reader.py `read_fis_out`. -/
theorem C241_fispact_output {K : Type} [Field K] [LinearOrder K] (flt : Str → Option K) (p : Str) : ReadsOnly p (FispactOutput.readFisOut flt p) := by
  refine readsOnly_of (fun t => FispactOutput.readLines flt p (splitlines t)) .ValueError (fun fs => ?_)
  unfold FispactOutput.readFisOut NeutUtilities.getLines
  rw [PyM.bind_run]
  unfold readText
  rcases fs.node p with _ | n
  · rfl
  · cases n <;> rfl

/-- fispact_input_reader.py `read_fispact_input`. -/
theorem C241_fispact_input (p : Str) : ReadsOnly p (FispactInput.readFispactInput p) := by
  refine readsOnly_of (fun t => .ok (splitlines t)) .ValueError (fun fs => ?_)
  unfold FispactInput.readFispactInput NeutUtilities.getLines
  rw [PyM.bind_run]
  unfold readText
  rcases fs.node p with _ | n
  · rfl
  · cases n <;> rfl

/-- meshtal_analysis.py `read_meshtally_file`. -/
theorem C241_meshtally {K : Type} [Field K] [LinearOrder K] [FloorRing K] (flt : Str → Option K) (numeric : Str → Option (Option K)) (p : Str)
    (meshNum : Option Int) : ReadsOnly p (Meshtal.readMeshtallyFile flt numeric p meshNum) := by
  refine readsOnly_of (fun t => Meshtal.readMeshtallyText flt numeric meshNum t) .OSError (fun fs => ?_)
  unfold Meshtal.readMeshtallyFile
  rw [PyM.bind_run]
  unfold readText
  rcases fs.node p with _ | n
  · rfl
  · cases n <;> rfl

/-- r2s_cell.py `read_config`. -/
theorem C241_config {F : Type} (json : Str → Except Err (R2sCell.Json F)) (p : Str) : ReadsOnly p (R2sCell.readConfig json p) := by
  refine readsOnly_of (fun t => json t >>= R2sCell.fromConfig) .OSError (fun fs => ?_)
  unfold R2sCell.readConfig
  rw [PyM.bind_run, PyM.getFS_run]
  show (if R2sCell.pathExists fs p = true then (readText p >>= fun text => PyM.lift (json text) >>= fun c => PyM.lift (R2sCell.fromConfig c))
    else PyM.raise .FileNotFoundError) fs = _
  by_cases h : R2sCell.pathExists fs p = true
  · rw [if_pos h, PyM.bind_run]
    unfold readText
    rcases fs.node p with _ | n
    · rfl
    · cases n with
      | dir => rfl
      | file c =>
        show (PyM.lift (json (univNL c)) >>= fun c => PyM.lift (R2sCell.fromConfig c)) fs = _
        rw [PyM.bind_run]
        simp only [PyM.lift]
        rcases json (univNL c) with e | v <;> rfl
  · rw [if_neg h]
    have : fs.node p = none := by
      simp only [R2sCell.pathExists, Bool.or_eq_true, not_or] at h
      simpa using h.2
    rw [this]
    rfl

/-- CR LF against LF. -/
example : SameLines p!"a\r\nb\r" p!"a\nb\n" :=
  .char (by decide) (by decide) (.ends (e := ['\r', '\n']) (e' := ['\n']) (by simp [LineEnd]) (by simp [LineEnd])
    (.char (by decide) (by decide) (.ends (e := ['\r']) (e' := ['\n']) (by simp [LineEnd]) (by simp [LineEnd]) .nil)))

/-- The number of lines of a file read with `get_lines` is the same after a conversion to CR LF. -/
example (fs fs' : FS) (h : fs.node p!"f" = some (.file p!"a\r\n")) (h' : fs'.node p!"f" = some (.file p!"a\n")) :
    (NeutUtilities.getLines p!"f" fs).1 = (NeutUtilities.getLines p!"f" fs').1 :=
  (C241_get_lines p!"f").ends fs fs' _ _ h h' (.char (by decide) (by decide)
    (.ends (e := ['\r', '\n']) (e' := ['\n']) (by simp [LineEnd]) (by simp [LineEnd]) .nil))

end Props
