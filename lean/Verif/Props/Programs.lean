/-
C286: programs fail if their input cannot be read. C287: programs write the file they are told to and no other.
-/
import Verif.Model.Programs
import Verif.Props.WritersLocal

namespace Props
open Py NeutUtilities
variable {α : Type}

/-- Spec: the program ends with an exception and leaves everything as it was. -/
def EndsBadly (m : PyM α) (fs : FS) : Prop := (∃ e, (m fs).1 = .error e) ∧ (m fs).2 = fs

/-- Spec: there is no file of this name, nothing at all or a folder. -/
def NoFile (fs : FS) (p : Str) : Prop := fs.node p = none ∨ fs.node p = some .dir

private theorem discard_run (m : PyM α) (fs : FS) :
    (∀ a, (m fs).1 = .ok a → (Programs.discard m fs).1 = .ok ()) ∧ (∀ e, (m fs).1 = .error e → (Programs.discard m fs).1 = .error e) ∧
    (Programs.discard m fs).2 = (m fs).2 := by
  unfold Programs.discard
  rw [PyM.bind_run]
  rcases m fs with ⟨r, fs1⟩
  cases r with
  | error e => exact ⟨fun a h => (by cases h), fun e h => (by cases h; rfl), rfl⟩
  | ok a => exact ⟨fun _ _ => rfl, fun e h => (by cases h), rfl⟩

private theorem reads_bad {p : Str} {m : PyM α} (h : ReadsOnly p m) {fs : FS} (hf : NoFile fs p) : EndsBadly m fs := by
  refine ⟨?_, h.keeps fs⟩
  rcases hf with hf | hf
  · exact ⟨_, h.missing fs hf⟩
  · exact h.dir fs hf

private theorem discard_bad {m : PyM α} {fs : FS} (h : EndsBadly m fs) : EndsBadly (Programs.discard m) fs := by
  obtain ⟨⟨e, he⟩, hk⟩ := h
  exact ⟨⟨e, (discard_run m fs).2.1 e he⟩, (discard_run m fs).2.2.trans hk⟩

private theorem bind_bad {β : Type} {m : PyM α} {f : α → PyM β} {fs : FS} (h : EndsBadly m fs) : EndsBadly (m >>= f) fs := by
  obtain ⟨⟨e, he⟩, hk⟩ := h
  have : m fs = (.error e, fs) := Prod.ext he hk
  unfold EndsBadly
  rw [PyM.bind_run, this]
  exact ⟨⟨e, rfl⟩, rfl⟩

private theorem text_bad {fs : FS} {p : Str} (h : NoFile fs p) : EndsBadly (readText p) fs := by
  unfold EndsBadly readText
  rcases h with h | h <;> rw [h] <;> exact ⟨⟨_, rfl⟩, rfl⟩

/-- C286 (part that holds): the programs that read their input end with an exception and change nothing if there is no such file.
    Missing: the program for track files (`C286_ptrac_violated`). -/
theorem C286_readers_partial {F K T : Type} [LinearOrder F] [Field K] [LinearOrder K] [FloorRing K] (flt : Str → Option F) (fltK : Str → Option K)
    (numeric : Str → Option (Option K)) (minusOne : F) (enum : List Str → List Str) (date : Str → Option T) {fs : FS} {p : Str} (h : NoFile fs p) :
    EndsBadly (Programs.fispactInput p) fs ∧ EndsBadly (Programs.fispactOutput fltK p) fs ∧ EndsBadly (Programs.printlib flt p) fs ∧
    EndsBadly (Programs.mcnpInput flt p) fs ∧ EndsBadly (Programs.mcnpOutput flt minusOne enum p) fs ∧
    EndsBadly (Programs.meshtal fltK numeric p) fs ∧ EndsBadly (Programs.xsdir flt p) fs ∧
    ∀ o, EndsBadly (Programs.runPlot flt date p o) fs :=
  ⟨discard_bad (reads_bad (C241_fispact_input p) h), discard_bad (reads_bad (C241_fispact_output fltK p) h),
    discard_bad (reads_bad (C241_printlib flt p) h), discard_bad (reads_bad (C241_mcnp_input flt p) h),
    discard_bad (reads_bad (C241_mcnp_output flt minusOne enum p) h), discard_bad (reads_bad (C241_meshtally fltK numeric p none) h),
    discard_bad (reads_bad (C241_xsdir flt p) h), fun _ => bind_bad (reads_bad (C241_run_log flt date p) h)⟩

/-- C286 (part that holds): the programs that write a file, and the activation script. -/
theorem C286_writers_partial {F : Type} [LinearOrder F] (flt : Str → Option F) (str : F → Str) (minusOne : F) (enum : List Str → List Str)
    (json : Str → Except Err (R2sCell.Json F)) (enumI : List Int → List Int) {fs : FS} {p : Str} (h : NoFile fs p) :
    (∀ o, EndsBadly (Programs.lostPoints flt str p o) fs) ∧ (∀ o, EndsBadly (Programs.ofileReduce p o) fs) ∧
    (∀ o, EndsBadly (Programs.magic p o) fs) ∧ EndsBadly (R2sCell.main flt minusOne enum json enumI p) fs := by
  refine ⟨fun o => ?_, fun o => bind_bad (reads_bad (C241_get_lines p) h), fun o => ⟨⟨_, rfl⟩, rfl⟩, bind_bad (reads_bad (C241_config json p) h)⟩
  unfold Programs.lostPoints
  split <;> exact discard_bad (bind_bad (text_bad h))

/-- C286 is violated: the program for track files ends well whatever there is, and reads nothing. -/
theorem C286_ptrac_violated (fs : FS) (p : Str) : Programs.ptrac p fs = (.ok (), fs) := rfl

/-- C286 is violated: so the files the reader refuses do not stop it, for every file the reader raises an error for. -/
theorem C286_refused_violated {F : Type} (flt : Str → Option F) {fs : FS} {p : Str} (h : NoFile fs p) :
    EndsBadly (Ptrac.readPtrac flt p) fs ∧ ¬ EndsBadly (Programs.ptrac p) fs := by
  refine ⟨reads_bad (C241_ptrac flt p) h, ?_⟩
  rintro ⟨⟨e, he⟩, -⟩
  cases he

/-- C286: what the readers raise for an existing file ends their program too, and a reader that succeeds makes the program succeed. -/
theorem C286_same {F K : Type} [LinearOrder F] [Field K] [LinearOrder K] [FloorRing K] (flt : Str → Option F) (fltK : Str → Option K)
    (numeric : Str → Option (Option K)) (minusOne : F) (enum : List Str → List Str) (fs : FS) (p : Str) :
    (∀ e, (Programs.fispactInput p fs).1 = .error e ↔ (FispactInput.readFispactInput p fs).1 = .error e) ∧
    (∀ e, (Programs.fispactOutput fltK p fs).1 = .error e ↔ (FispactOutput.readFisOut fltK p fs).1 = .error e) ∧
    (∀ e, (Programs.printlib flt p fs).1 = .error e ↔ (Printlib.read flt p fs).1 = .error e) ∧
    (∀ e, (Programs.mcnpInput flt p fs).1 = .error e ↔ (McnpInput.readMcnpInput flt p fs).1 = .error e) ∧
    (∀ e, (Programs.mcnpOutput flt minusOne enum p fs).1 = .error e ↔ (McnpOutput.readOutputFile flt minusOne enum p fs).1 = .error e) ∧
    (∀ e, (Programs.meshtal fltK numeric p fs).1 = .error e ↔ (Meshtal.readMeshtallyFile fltK numeric p none fs).1 = .error e) ∧
    (∀ e, (Programs.xsdir flt p fs).1 = .error e ↔ (Xsdir.readXsdir flt p fs).1 = .error e) := by
  have key : ∀ {β : Type} (m : PyM β) e, (Programs.discard m fs).1 = .error e ↔ (m fs).1 = .error e := by
    intro β m e
    obtain ⟨h1, h2, -⟩ := discard_run m fs
    cases hm : (m fs).1 with
    | error e' =>
      rw [h2 _ hm]
      constructor <;> intro h <;> cases h <;> rfl
    | ok a =>
      rw [h1 _ hm]
      constructor <;> intro h <;> cases h
  exact ⟨key _, key _, key _, key _, key _, key _, key _⟩

/-- C287: the programs that only read change nothing at all. -/
theorem C287_readers {F K T : Type} [LinearOrder F] [Field K] [LinearOrder K] [FloorRing K] (flt : Str → Option F) (fltK : Str → Option K)
    (numeric : Str → Option (Option K)) (minusOne : F) (enum : List Str → List Str) (date : Str → Option T) (fs : FS) (p : Str) :
    (Programs.fispactInput p fs).2 = fs ∧ (Programs.fispactOutput fltK p fs).2 = fs ∧ (Programs.printlib flt p fs).2 = fs ∧
    (Programs.mcnpInput flt p fs).2 = fs ∧ (Programs.mcnpOutput flt minusOne enum p fs).2 = fs ∧ (Programs.ptrac p fs).2 = fs ∧
    (Programs.meshtal fltK numeric p fs).2 = fs ∧ (Programs.xsdir flt p fs).2 = fs ∧ ∀ o, (Programs.runPlot flt date p o fs).2 = fs := by
  refine ⟨(discard_run _ fs).2.2.trans ((C241_fispact_input p).keeps fs), (discard_run _ fs).2.2.trans ((C241_fispact_output fltK p).keeps fs),
    (discard_run _ fs).2.2.trans ((C241_printlib flt p).keeps fs), (discard_run _ fs).2.2.trans ((C241_mcnp_input flt p).keeps fs),
    (discard_run _ fs).2.2.trans ((C241_mcnp_output flt minusOne enum p).keeps fs), rfl,
    (discard_run _ fs).2.2.trans ((C241_meshtally fltK numeric p none).keeps fs), (discard_run _ fs).2.2.trans ((C241_xsdir flt p).keeps fs), ?_⟩
  intro o
  unfold Programs.runPlot
  rw [PyM.bind_run]
  have := (C241_run_log flt date p).keeps fs
  rcases hm : RunPlot.plotNpsStats flt date p fs with ⟨r, fs1⟩
  rw [hm] at this
  cases this
  cases r <;> rfl

private theorem discard_writes {p : Str} {m : PyM α} (h : WritesOnly p m) : WritesOnly p (Programs.discard m) := by
  have hr := discard_run m
  refine ⟨fun fs => ?_, fun fs e he => ?_, fun fs => ?_⟩
  · rw [(hr fs).2.2]; exact h.others fs
  · rw [(hr fs).2.2]
    cases hm : (m fs).1 with
    | error e' => exact h.failed fs e' hm
    | ok a => rw [(hr fs).1 a hm] at he; cases he
  · rw [(hr fs).2.2]; exact h.kind fs

/-- C287 (part that holds): with a name that is not empty the program for lost points writes that file only, without a name it writes lost.3d only.
    Missing: an empty name (`C287_empty_violated`). -/
theorem C287_lost_partial {F : Type} (flt : Str → Option F) (str : F → Str) (p : Str) :
    (∀ o, o ≠ [] → WritesOnly (o ++ p!".3d") (Programs.lostPoints flt str p (some o))) ∧
    WritesOnly p!"lost.3d" (Programs.lostPoints flt str p none) := by
  constructor
  · intro o ho
    cases o with
    | nil => exact absurd rfl ho
    | cons c o => exact discard_writes (C242_lost_points flt str p (c :: o))
  · exact discard_writes (C242_lost_points flt str p p!"lost")

/-- C287: what the program for lost points does is what the function does. -/
theorem C287_lost_same {F : Type} (flt : Str → Option F) (str : F → Str) (p o : Str) (ho : o ≠ []) (fs : FS) :
    (Programs.lostPoints flt str p (some o) fs).2 = (LostPoints.outputLostPoints flt str p o fs).2 ∧
    (∀ n, (LostPoints.outputLostPoints flt str p o fs).1 = .ok n → (Programs.lostPoints flt str p (some o) fs).1 = .ok ()) ∧
    (∀ e, (LostPoints.outputLostPoints flt str p o fs).1 = .error e → (Programs.lostPoints flt str p (some o) fs).1 = .error e) := by
  cases o with
  | nil => exact absurd rfl ho
  | cons c o =>
    obtain ⟨h1, h2, h3⟩ := discard_run (LostPoints.outputLostPoints flt str p (c :: o)) fs
    exact ⟨h3, h1, h2⟩

/-- C287 is violated: an empty name is taken as no name, so lost.3d is written over although another name was given (the function with the empty
    name writes `.3d`). For every input, file system and text of numbers. -/
theorem C287_empty_violated {F : Type} (flt : Str → Option F) (str : F → Str) (p : Str) :
    Programs.lostPoints flt str p (some []) = Programs.lostPoints flt str p none ∧
    WritesOnly p!".3d" (LostPoints.outputLostPoints flt str p []) :=
  ⟨rfl, C242_lost_points flt str p []⟩

/-- C287: the shortened output goes to the file named on the command line only. -/
theorem C287_reduce (p o : Str) : WritesOnly o (Programs.ofileReduce p o) := C242_reduce_ofile p o

/-- C287: the figure of the run is saved under the name of the command line, and shown if there is none or an empty one. -/
theorem C287_figure {F T : Type} (flt : Str → Option F) (date : Str → Option T) (p : Str) (o : Option Str) (fs : FS) {r : RunPlot.Fig F T × Option Str}
    (h : (Programs.runPlot flt date p o fs).1 = .ok r) :
    (RunPlot.plotNpsStats flt date p fs).1 = .ok r.1 ∧ (r.2 = o ∧ o ≠ some [] ∨ r.2 = none ∧ o = some []) := by
  unfold Programs.runPlot at h
  rw [PyM.bind_run] at h
  rcases hm : RunPlot.plotNpsStats flt date p fs with ⟨x, fs1⟩
  rw [hm] at h
  cases x with
  | error e => cases h
  | ok fig =>
    cases h
    refine ⟨rfl, ?_⟩
    rcases o with _ | o
    · exact .inl ⟨rfl, by simp⟩
    · cases o with
      | nil => exact .inr ⟨rfl, rfl⟩
      | cons c o => exact .inl ⟨rfl, by simp⟩

example : NoFile ⟨fun _ => none, fun _ => true⟩ p!"out" := .inl rfl
example : Programs.ptrac p!"ptrac" ⟨fun _ => none, fun _ => true⟩ = (.ok (), ⟨fun _ => none, fun _ => true⟩) := rfl

end Props
