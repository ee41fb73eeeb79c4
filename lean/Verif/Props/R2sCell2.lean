/- Properties C110, C111, C144, C145 of r2s_cell.py: what is read, and what a failed run leaves behind. -/
import Verif.Props.R2sCell

set_option linter.unusedSimpArgs false
set_option linter.unusedSectionVars false

namespace Props
open Py NeutUtilities R2sCell

variable {F : Type}

private theorem getLines_touches {S : Str → Prop} (p : Str) : Touches S (getLines p) :=
  Touches.bind (Touches.readText p) (fun _ => Touches.pure _)

section
variable [LinearOrder F] (flt : Str → Option F) (m : F) (enum : List Str → List Str)

theorem r2s_output_touches {S : Str → Prop} (inp : Inputs F) : Touches S (readDataFromMcnpOutput flt m enum inp) := by
  unfold readDataFromMcnpOutput
  apply Touches.bind (Touches.lift _)
  intro v
  apply Touches.bind (Touches.lift _)
  intro path
  apply Touches.bind Touches.getFS
  intro fs
  split
  · apply Touches.bind (Touches.bind (getLines_touches path) (fun _ => Touches.lift _))
    intro out
    split
    · exact Touches.raise _
    · exact Touches.lift _
  · exact Touches.raise _

theorem r2s_input_touches {S : Str → Prop} (enumI : List Int → List Int) (inp : Inputs F) (ns : List Int) :
    Touches S (readDataFromMcnpInput flt enumI inp ns) := by
  unfold readDataFromMcnpInput
  apply Touches.bind (Touches.lift _)
  intro path
  apply Touches.bind Touches.getFS
  intro fs
  split
  · apply Touches.bind (Touches.bind (getLines_touches path) (fun _ => Touches.lift _))
    intro mc
    apply Touches.bind (Touches.lift _)
    intro cd
    apply Touches.bind (Touches.lift _)
    intro rows
    apply Touches.bind (Touches.lift _)
    intro mats
    exact Touches.pure _
  · exact Touches.raise _

theorem r2s_config_touches {S : Str → Prop} (json : Str → Except Err (Json F)) (path : Str) : Touches S (readConfig json path) := by
  unfold readConfig
  apply Touches.bind Touches.getFS
  intro fs
  split
  · apply Touches.bind (Touches.readText _)
    intro t
    apply Touches.bind (Touches.lift _)
    intro c
    exact Touches.lift _
  · exact Touches.raise _

theorem r2s_output_run {inp : Inputs F} {path c : Str} {fs : FS} (hi : inp.mcOutput = some (.str path)) (hf : fs.node path = some (.file c)) :
    readDataFromMcnpOutput flt m enum inp fs = (match McnpOutput.readOutputLines flt m enum path (splitlines (univNL c)) with
      | .error e => .error e
      | .ok out => if out.fatal then .error .ValueError else getCellsMcnp out, fs) := by
  unfold readDataFromMcnpOutput
  rw [hi, PyM.bind_ok (m := PyM.lift (orErr .AttributeError (some (Json.str path)))) (fs' := fs) (a := Json.str path) rfl,
    PyM.bind_ok (m := PyM.lift (asPath (Json.str path))) (fs' := fs) (a := path) rfl, PyM.bind_ok (PyM.getFS_run fs)]
  have : pathExists fs path = true := by simp [pathExists, hf]
  rw [if_pos this]
  have hg : getLines path fs = (.ok (splitlines (univNL c)), fs) := by
    unfold getLines
    rw [PyM.bind_ok (m := readText path) (fs' := fs) (a := univNL c) (by simp [readText, hf])]
    rfl
  unfold McnpOutput.readOutputFile
  cases ho : McnpOutput.readOutputLines flt m enum path (splitlines (univNL c)) with
  | error e => rw [PyM.bind_err (e := e) (fs' := fs)]; rw [PyM.bind_ok hg, ho]; rfl
  | ok out =>
    rw [PyM.bind_ok (a := out) (fs' := fs)]
    · simp only
      split <;> rfl
    · rw [PyM.bind_ok hg, ho]; rfl

/-! ### C110 -/

/-- Whatever tallies or cells the configuration asks for makes no difference. -/
theorem C110_ignored (inp : Inputs F) (v w : Json F) :
    readDataFromMcnpOutput flt m enum { inp with tallies := v, cells := w } = readDataFromMcnpOutput flt m enum inp := rfl

/-- The cells are those of all neutron tallies of type 4 of the file, which is what is wanted if no tallies are requested. -/
theorem C110_default_partial {inp : Inputs F} {path c : Str} {fs fs' : FS} (hi : inp.mcOutput = some (.str path))
    (hf : fs.node path = some (.file c)) (ns : List Int) (ts : List (McnpOutput.Tally F)) :
    readDataFromMcnpOutput flt m enum inp fs = (.ok (ns, ts), fs') → fs' = fs ∧
      ∃ out, McnpOutput.readOutputLines flt m enum path (splitlines (univNL c)) = .ok out ∧
        (∀ t, t ∈ ts ↔ t ∈ out.tallyData ∧ Selected p!"neutrons" none t) ∧ ts.Sublist out.tallyData ∧
        List.Forall₂ (fun s n => pyInt s = some n) (ts.flatMap (·.cells)) ns := by
  rw [r2s_output_run flt m enum hi hf]
  intro h
  simp only [Prod.mk.injEq] at h
  obtain ⟨h, rfl⟩ := h
  refine ⟨rfl, ?_⟩
  split at h
  · cases h
  · rename_i out ho
    split at h
    · cases h
    · rw [C107_selection] at h
      refine ⟨out, ho, ?_, ?_, h.2⟩
      · rw [h.1]; intro t; simp
      · rw [h.1]; exact List.filter_sublist

end

private def twoTallies : Str := join p!"\n" [p!"1mcnp x 01/01/20 10:00:00",
  p!"1tally        4        nps =        1000", p!"           tally type 4", p!"           particle(s): neutrons", p!"           volumes ",
  p!"     cell:    1   2", p!"   3 4", p!" ", p!" cell  1 ", p!"   10 1", p!" cell  2 ", p!"    20 2", p!" ",
  p!"1tally       14        nps =        1000", p!"           tally type 4", p!"           particle(s): neutrons", p!"           volumes ",
  p!"     cell:    3 ", p!"   3 ", p!" ", p!" cell  3 ", p!"   10 1", p!" ", p!"1tally fluctuation charts"]

private def oneFile : FS := ⟨fun q => if q = p!"out" then some (.file twoTallies) else none, fun _ => true⟩

/-- Tally 4 is requested, but cell 3 of tally 14 is processed as well. -/
theorem C110_violated : ∃ (inp : Inputs Nat) (fs : FS) (path c : Str) (out : McnpOutput.Output Nat), inp.mcOutput = some (.str path) ∧
    inp.tallies = .arr [.int 4] ∧ fs.node path = some (.file c) ∧ McnpOutput.readOutputLines pyNat 0 id path (splitlines (univNL c)) = .ok out ∧
    out.tallyData.map (fun t => (t.number, t.cells)) = [(4, [p!"1", p!"2"]), (14, [p!"3"])] ∧
    (readDataFromMcnpOutput pyNat 0 id inp fs).1.map (·.1) = .ok [1, 2, 3] := by
  have hr : ∃ out, McnpOutput.readOutputLines pyNat 0 id p!"out" (splitlines (univNL twoTallies)) = .ok out ∧
      out.tallyData.map (fun t => (t.number, t.cells)) = [(4, [p!"1", p!"2"]), (14, [p!"3"])] ∧ out.fatal = false ∧
      (getCellsMcnp out).map (·.1) = .ok [1, 2, 3] := by
    have : (McnpOutput.readOutputLines pyNat 0 id p!"out" (splitlines (univNL twoTallies))).map (fun out =>
      (out.tallyData.map (fun t => (t.number, t.cells)), out.fatal, ((getCellsMcnp out).map (·.1)).toOption)) =
        .ok ([(4, [p!"1", p!"2"]), (14, [p!"3"])], false, some [1, 2, 3]) := by decide +kernel
    cases h : McnpOutput.readOutputLines pyNat 0 id p!"out" (splitlines (univNL twoTallies)) with
    | error e => rw [h] at this; cases this
    | ok out =>
      rw [h] at this
      simp only [Except.map, Except.ok.injEq, Prod.mk.injEq] at this
      refine ⟨out, rfl, this.1, this.2.1, ?_⟩
      have h3 := this.2.2
      cases hg : getCellsMcnp out with
      | error e => rw [hg] at h3; simp [Except.toOption] at h3
      | ok r => rw [hg] at h3; simpa [Except.toOption, Except.map] using h3
  obtain ⟨out, h1, h2, h3, h4⟩ := hr
  refine ⟨{ mcOutput := some (.str p!"out"), tallies := .arr [.int 4] }, oneFile, p!"out", twoTallies, out, rfl, rfl, rfl, h1, h2, ?_⟩
  rw [r2s_output_run pyNat 0 id (path := p!"out") (c := twoTallies) rfl rfl]
  simp only [h1, h3]
  exact h4

section
variable [LinearOrder F] (flt : Str → Option F) (m : F) (enum : List Str → List Str)

/-! ### C111 -/

/-- A file with a fatal error message is rejected, and nothing is changed. -/
theorem C111_fatal {inp : Inputs F} {path c : Str} {fs : FS} (hi : inp.mcOutput = some (.str path)) (hf : fs.node path = some (.file c))
    (h : ∃ l ∈ splitlines (univNL c), ∃ w, FatalText w ∧ w <:+: l) :
    ∃ e, readDataFromMcnpOutput flt m enum inp fs = (.error e, fs) := by
  rw [r2s_output_run flt m enum hi hf]
  rw [← C96_fatal] at h
  cases ho : McnpOutput.readOutputLines flt m enum path (splitlines (univNL c)) with
  | error e => exact ⟨e, rfl⟩
  | ok out =>
    have : out.fatal = true := by
      unfold McnpOutput.readOutputLines at ho
      simp only [ex_bind_ok, ex_pure, Except.ok.injEq] at ho
      obtain ⟨_, _, _, _, _, _, _, _, _, _, rfl⟩ := ho
      exact h
    exact ⟨.ValueError, by simp [this]⟩

/-- A missing entry, an entry that is no text, a missing file: an exception, and nothing is changed. -/
theorem C111_output_missing (inp : Inputs F) (fs : FS) :
    (inp.mcOutput = none → readDataFromMcnpOutput flt m enum inp fs = (.error .AttributeError, fs)) ∧
    (∀ v, inp.mcOutput = some v → (∀ s, v ≠ .str s) → readDataFromMcnpOutput flt m enum inp fs = (.error .TypeError, fs)) ∧
    (∀ s, inp.mcOutput = some (.str s) → s ≠ [] → fs.node s = none → readDataFromMcnpOutput flt m enum inp fs = (.error .FileNotFoundError, fs)) := by
  refine ⟨?_, ?_, ?_⟩
  · intro h; unfold readDataFromMcnpOutput; rw [h]; rfl
  · intro v h hs
    unfold readDataFromMcnpOutput
    rw [h, PyM.bind_ok (m := PyM.lift (orErr .AttributeError (some v))) (fs' := fs) (a := v) rfl]
    cases v with
    | str s => exact absurd rfl (hs s)
    | _ => rfl
  · intro s h hs hn
    unfold readDataFromMcnpOutput
    rw [h, PyM.bind_ok (m := PyM.lift (orErr .AttributeError (some (Json.str s)))) (fs' := fs) (a := Json.str s) rfl,
      PyM.bind_ok (m := PyM.lift (asPath (Json.str s))) (fs' := fs) (a := s) rfl, PyM.bind_ok (PyM.getFS_run fs)]
    have : pathExists fs s = false := by simp [pathExists, hn, hs]
    simp [this]

theorem C111_input_missing (enumI : List Int → List Int) (inp : Inputs F) (ns : List Int) (fs : FS) :
    ((∀ s, inp.mcInput ≠ .str s) → readDataFromMcnpInput flt enumI inp ns fs = (.error .TypeError, fs)) ∧
    (∀ s, inp.mcInput = .str s → s ≠ [] → fs.node s = none → readDataFromMcnpInput flt enumI inp ns fs = (.error .FileNotFoundError, fs)) := by
  refine ⟨?_, ?_⟩
  · intro hs
    unfold readDataFromMcnpInput
    cases h : inp.mcInput with
    | str s => exact absurd h (hs s)
    | _ => rfl
  · intro s h hs hn
    unfold readDataFromMcnpInput
    rw [h, PyM.bind_ok (m := PyM.lift (asPath (Json.str s))) (fs' := fs) (a := s) rfl, PyM.bind_ok (PyM.getFS_run fs)]
    have : pathExists fs s = false := by simp [pathExists, hn, hs]
    simp [this]

/-- The whole run changes the file system only after the configuration, the output and the input were read without an exception. -/
theorem C111_main (json : Str → Except Err (Json F)) (enumI : List Int → List Int) (config : Str) (fs : FS)
    (h : (main flt m enum json enumI config fs).2 ≠ fs) :
    ∃ inp ns ts r, readConfig json config fs = (.ok inp, fs) ∧ readDataFromMcnpOutput flt m enum inp fs = (.ok (ns, ts), fs) ∧
      readDataFromMcnpInput flt enumI inp ns fs = (.ok r, fs) ∧ ns ≠ [] := by
  unfold main at h
  rcases h1 : readConfig json config fs with ⟨r1, fs1⟩
  have e1 := congrArg (·.2) h1
  rw [(r2s_config_touches (S := fun _ => False) json config).same] at e1
  simp only at e1
  subst e1
  cases r1 with
  | error e => rw [PyM.bind_err h1] at h; exact absurd rfl h
  | ok inp =>
  rw [PyM.bind_ok h1] at h
  cases hm : isMcnp inp.mcCode with
  | error e => rw [hm, PyM.bind_err (m := PyM.lift (.error e)) (e := e) (fs' := fs) rfl] at h; exact absurd rfl h
  | ok b =>
  rw [hm, PyM.bind_ok (m := PyM.lift (.ok b)) (a := b) (fs' := fs) rfl] at h
  cases b with
  | false => exact absurd rfl h
  | true =>
  rw [if_pos rfl] at h
  rcases h2 : readDataFromMcnpOutput flt m enum inp fs with ⟨r2, fs2⟩
  have e2 := congrArg (·.2) h2
  rw [(r2s_output_touches (S := fun _ => False) flt m enum inp).same] at e2
  simp only at e2
  subst e2
  cases r2 with
  | error e => rw [PyM.bind_err h2] at h; exact absurd rfl h
  | ok r2 =>
  rw [PyM.bind_ok h2] at h
  rcases h3 : readDataFromMcnpInput flt enumI inp r2.1 fs with ⟨r3, fs3⟩
  have e3 := congrArg (·.2) h3
  rw [(r2s_input_touches (S := fun _ => False) flt enumI inp r2.1).same] at e3
  simp only at e3
  subst e3
  cases r3 with
  | error e => rw [PyM.bind_err h3] at h; exact absurd rfl h
  | ok r3 =>
  rw [PyM.bind_ok h3] at h
  refine ⟨inp, r2.1, r2.2, r3, rfl, h2, h3, ?_⟩
  intro hn
  rw [hn] at h
  exact h rfl

end

/-- A missing entry for the FILES file raises only after the folder of the first cell was made. -/
theorem C111_files_entry_violated (inp : Inputs F) (h : ∀ s, inp.filesFile ≠ .str s) : ∃ fs : FS, fs.node p!"cell1" = none ∧
    ∀ ns, (setupCells inp (1 :: ns) fs).1 = .error .TypeError ∧ (setupCells inp (1 :: ns) fs).2.node p!"cell1" = some .dir := by
  refine ⟨⟨fun _ => none, fun _ => true⟩, rfl, ?_⟩
  intro ns
  have hs : fispactSetup p!"cell1" inp ⟨fun _ => none, fun _ => true⟩ = (.error .TypeError, ((((⟨fun _ => none, fun _ => true⟩ : FS).put p!"cell1" .dir).put
      p!"cell1/collapse.i" (.file (fileText (collapseLines 175)))).put p!"cell1/array.i" (.file (fileText arrayLines))).put p!"cell1/cell1.i" (.file (fileText []))) := by
    have hc : ∀ f : FS, copyFilesFile inp p!"cell1" f = (.error .TypeError, f) := by
      intro f
      unfold copyFilesFile
      cases hf : inp.filesFile with
      | str s => exact absurd hf (h s)
      | _ => rfl
    unfold fispactSetup
    rw [PyM.bind_ok (m := ensureDir p!"cell1") (fs' := (⟨fun _ => none, fun _ => true⟩ : FS).put p!"cell1" .dir) (a := ()) rfl]
    rw [PyM.bind_ok (m := writeCollapse (p!"cell1" ++ p!"/collapse.i") 175) (fs' := ((⟨fun _ => none, fun _ => true⟩ : FS).put p!"cell1" .dir).put p!"cell1/collapse.i" (.file (fileText (collapseLines 175)))) (a := ()) rfl]
    rw [PyM.bind_ok (m := writeArray (p!"cell1" ++ p!"/array.i")) (fs' := (((⟨fun _ => none, fun _ => true⟩ : FS).put p!"cell1" .dir).put p!"cell1/collapse.i" (.file (fileText (collapseLines 175)))).put
      p!"cell1/array.i" (.file (fileText arrayLines))) (a := ()) rfl]
    rw [PyM.bind_ok (m := writeFispact (p!"cell1" ++ p!"/" ++ p!"cell1" ++ p!".i")) (fs' := ((((⟨fun _ => none, fun _ => true⟩ : FS).put p!"cell1" .dir).put p!"cell1/collapse.i" (.file (fileText (collapseLines 175)))).put
      p!"cell1/array.i" (.file (fileText arrayLines))).put p!"cell1/cell1.i" (.file (fileText []))) (a := ()) rfl]
    rw [PyM.bind_err (hc _)]
  have : setupCells inp (1 :: ns) ⟨fun _ => none, fun _ => true⟩ = (.error .TypeError, ((((⟨fun _ => none, fun _ => true⟩ : FS).put p!"cell1" .dir).put
      p!"cell1/collapse.i" (.file (fileText (collapseLines 175)))).put p!"cell1/array.i" (.file (fileText arrayLines))).put p!"cell1/cell1.i" (.file (fileText []))) := by
    show (fispactSetup p!"cell1" inp >>= fun _ => setupCells inp ns) _ = _
    rw [PyM.bind_err hs]
  rw [this]
  exact ⟨rfl, rfl⟩

example : ∃ l ∈ splitlines (univNL p!"a\n fatal error. bad\n"), ∃ w, FatalText w ∧ w <:+: l := by
  rw [← C96_fatal]
  decide +kernel

/-! ### C144 -/

/-- A log file, whatever it says, is never reported as faulty. -/
theorem C144_never_reports_violated (fs : FS) (path c : Str) (h : fs.node path = some (.file c)) : checkFispactErrors path fs = (.ok 0, fs) := by
  unfold checkFispactErrors
  rw [PyM.bind_ok (PyM.getFS_run fs)]
  have : pathExists fs path = true := by simp [pathExists, h]
  rw [if_pos this]
  have hg : getLines path fs = (.ok (splitlines (univNL c)), fs) := by
    unfold getLines
    rw [PyM.bind_ok (m := readText path) (fs' := fs) (a := univNL c) (by simp [readText, h])]
    rfl
  rw [PyM.bind_ok hg]
  rfl

/-- A missing log file raises FileNotFoundError. -/
theorem C144_missing_partial (fs : FS) (path : Str) (hp : path ≠ []) (h : fs.node path = none) :
    checkFispactErrors path fs = (.error .FileNotFoundError, fs) := by
  unfold checkFispactErrors
  rw [PyM.bind_ok (PyM.getFS_run fs)]
  have : pathExists fs path = false := by simp [pathExists, h, hp]
  simp [this]

example : (⟨fun _ => some (.file p!"FATAL ERROR"), fun _ => true⟩ : FS).node p!"log" = some (.file p!"FATAL ERROR") := rfl

/-! ### C145 -/

section
variable (flt : Str → Option F)

private theorem material_number {n : Int} {lines : List Str} {mat : McnpInput.Material F} (h : McnpInput.readMaterialLines flt n lines = .ok mat) : mat.number = n := by
  unfold McnpInput.readMaterialLines at h
  rw [ex_bind_ok] at h
  obtain ⟨m1, h1, h2⟩ := h
  unfold McnpInput.processMaterialLine at h1
  simp only at h1
  split at h1
  · cases h1
  · rw [ex_bind_ok] at h1
    obtain ⟨u, _, h1⟩ := h1
    simp only [ex_pure, Except.ok.injEq] at h1 h2
    rw [← h2, ← h1]

/-- On success: the rows of the cells, and one material for every distinct material number of the rows, as it is in the data
    block. -/
theorem C145_success (enumI : List Int → List Int) (hperm : ∀ l, (enumI l).Perm l) {inp : Inputs F} {path c : Str} {fs fs' : FS}
    (hi : inp.mcInput = .str path) (hf : fs.node path = some (.file c)) (ns : List Int) (rows : List (Row F)) (mats : List (McnpInput.Material F))
    (h : readDataFromMcnpInput flt enumI inp ns fs = (.ok (rows, mats), fs')) :
    fs' = fs ∧ ∃ mc, McnpInput.readLines flt path (splitlines (univNL c)) = .ok mc ∧ getCellData mc.cells ns = .ok (some rows) ∧
      (mats.map (·.number)).Nodup ∧ (∀ n, n ∈ mats.map (·.number) ↔ ∃ r ∈ rows, r.material = n) ∧
      ∀ mat ∈ mats, McnpInput.readMaterialLines flt mat.number mc.dataBlock = .ok mat := by
  unfold readDataFromMcnpInput at h
  rw [hi, PyM.bind_ok (m := PyM.lift (asPath (Json.str path))) (fs' := fs) (a := path) rfl, PyM.bind_ok (PyM.getFS_run fs)] at h
  have : pathExists fs path = true := by simp [pathExists, hf]
  rw [if_pos this] at h
  have hg : getLines path fs = (.ok (splitlines (univNL c)), fs) := by
    unfold getLines
    rw [PyM.bind_ok (m := readText path) (fs' := fs) (a := univNL c) (by simp [readText, hf])]
    rfl
  unfold McnpInput.readMcnpInput at h
  rw [pym_bind_ok] at h
  obtain ⟨mc, fs1, h1, h⟩ := h
  rw [PyM.bind_ok hg, PyM.lift_run, Prod.mk.injEq] at h1
  obtain ⟨h1, rfl⟩ := h1
  rw [pym_bind_ok] at h
  obtain ⟨cd, fs1, h2, h⟩ := h
  rw [PyM.lift_run, Prod.mk.injEq] at h2
  obtain ⟨h2, rfl⟩ := h2
  rw [pym_bind_ok] at h
  obtain ⟨rows', fs1, h3, h⟩ := h
  rw [PyM.lift_run, Prod.mk.injEq, orErr_ok_iff] at h3
  obtain ⟨h3, rfl⟩ := h3
  rw [pym_bind_ok] at h
  obtain ⟨mats', fs1, h4, h⟩ := h
  rw [PyM.lift_run, Prod.mk.injEq, mapM_except_ok_iff] at h4
  obtain ⟨h4, rfl⟩ := h4
  simp only [PyM.pure_run, Prod.mk.injEq, Except.ok.injEq] at h
  obtain ⟨⟨rfl, rfl⟩, rfl⟩ := h
  have hnum : mats'.map (·.number) = enumI (rows'.map (·.material)).dedup := by
    revert h4
    generalize enumI (rows'.map (·.material)).dedup = l
    intro h4
    clear * - h4
    induction h4 with
    | nil => rfl
    | cons h _ ih => rw [List.map_cons, ih, material_number flt h]
  refine ⟨rfl, mc, h1, by rw [h2, h3], ?_, ?_, ?_⟩
  · rw [hnum]; exact (hperm _).nodup_iff.2 (List.nodup_dedup _)
  · intro n
    rw [hnum, (hperm _).mem_iff, List.mem_dedup, List.mem_map]
  · intro mat hm
    generalize enumI (rows'.map (·.material)).dedup = l at h4
    clear * - h4 hm
    induction h4 with
    | nil => simp at hm
    | cons h _ ih =>
      rcases List.mem_cons.1 hm with rfl | hm
      · rw [material_number flt h]; exact h
      · exact ih hm

/-- Without cells there is no table to take the materials from: TypeError (if the input file can be read). -/
theorem C145_no_cells (enumI : List Int → List Int) {inp : Inputs F} {path c : Str} {fs : FS} (hi : inp.mcInput = .str path)
    (hf : fs.node path = some (.file c)) {mc : McnpInput.Input F} (hr : McnpInput.readLines flt path (splitlines (univNL c)) = .ok mc) :
    readDataFromMcnpInput flt enumI inp [] fs = (.error .TypeError, fs) := by
  unfold readDataFromMcnpInput
  rw [hi, PyM.bind_ok (m := PyM.lift (asPath (Json.str path))) (fs' := fs) (a := path) rfl, PyM.bind_ok (PyM.getFS_run fs)]
  have : pathExists fs path = true := by simp [pathExists, hf]
  rw [if_pos this]
  have hg : getLines path fs = (.ok (splitlines (univNL c)), fs) := by
    unfold getLines
    rw [PyM.bind_ok (m := readText path) (fs' := fs) (a := univNL c) (by simp [readText, hf])]
    rfl
  rw [PyM.bind_ok (m := McnpInput.readMcnpInput flt path) (fs' := fs) (a := mc)]
  · rfl
  · unfold McnpInput.readMcnpInput
    rw [PyM.bind_ok hg, hr]; rfl

end

private def smallInput : Str := join p!"\n" [p!"title", p!"1 3 -1.0 -1 imp:n=1", p!"2 3 -1.0 1 -2 imp:n=1", p!"3 0 2 imp:n=0", [], p!"1 so 1", p!"2 so 2", [],
  p!"m3 1001 1"]

example : ((readDataFromMcnpInput (fun s => some s.length) id { mcInput := .str p!"in" } [1, 2, 3]
    ⟨fun q => if q = p!"in" then some (.file smallInput) else none, fun _ => true⟩).1.map
      (fun r => (r.1.map (fun r => (r.number, r.material)), r.2.map (fun m => (m.number, m.numNuclides))))) =
    .ok ([(1, 3), (2, 3), (3, 0)], [(3, 1), (0, 0)]) := by decide +kernel

end Props
