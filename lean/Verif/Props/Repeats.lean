/- Property C294: running a program again changes nothing. -/
import Verif.Props.Programs
import Verif.Props.Again
import Verif.Props.OutputUtilities

namespace Props
open Py NeutUtilities
variable {α : Type}

/-- Spec: a second run ends as the first one did and leaves everything as the first one left it. -/
def Repeats (m : PyM α) (fs : FS) : Prop := m (m fs).2 = m fs

private theorem rep_keeps {m : PyM α} {fs : FS} (h : (m fs).2 = fs) : Repeats m fs := by unfold Repeats; rw [h]

private theorem write_again (p : Str) (lines : List Str) (fs : FS) : Repeats (writeLines p lines) fs := by
  unfold Repeats
  cases h : fs.canWrite p with
  | false => rw [writeLines_err lines h]; exact writeLines_err lines h
  | true =>
    have hw := writeLines_ok lines h
    rw [hw]
    exact C01_again p lines fs _ hw

/-- C294: the programs that only read. -/
theorem C294_readers {F K T : Type} [LinearOrder F] [Field K] [LinearOrder K] [FloorRing K] (flt : Str → Option F) (fltK : Str → Option K)
    (numeric : Str → Option (Option K)) (minusOne : F) (enum : List Str → List Str) (date : Str → Option T) (fs : FS) (p : Str) :
    Repeats (Programs.fispactInput p) fs ∧ Repeats (Programs.fispactOutput fltK p) fs ∧ Repeats (Programs.printlib flt p) fs ∧
    Repeats (Programs.mcnpInput flt p) fs ∧ Repeats (Programs.mcnpOutput flt minusOne enum p) fs ∧ Repeats (Programs.ptrac p) fs ∧
    Repeats (Programs.meshtal fltK numeric p) fs ∧ Repeats (Programs.xsdir flt p) fs ∧ (∀ o, Repeats (Programs.runPlot flt date p o) fs) ∧
    ∀ o, Repeats (Programs.magic p o) fs := by
  obtain ⟨h1, h2, h3, h4, h5, h6, h7, h8, h9⟩ := C287_readers flt fltK numeric minusOne enum date fs p
  exact ⟨rep_keeps h1, rep_keeps h2, rep_keeps h3, rep_keeps h4, rep_keeps h5, rep_keeps h6, rep_keeps h7, rep_keeps h8,
    fun o => rep_keeps (h9 o), fun o => rep_keeps rfl⟩

private theorem rep_lift {β : Type} {x : Except Err β} {f : β → PyM α} {fs : FS} (h : ∀ b, Repeats (f b) fs) : Repeats (PyM.lift x >>= f) fs := by
  cases x with
  | error e => exact rep_keeps rfl
  | ok b => exact h b

/-- C294: the program for FISPACT fluxes. -/
theorem C294_fluxes (flt : Str → Option (Option ℚ)) (fmt : ℚ → Str) (o : Str) (group energy : Option Str) (fs : FS) :
    Repeats (FluxesWriter.main flt fmt o group energy) fs := by
  refine rep_lift (fun k => rep_lift (fun d => ?_))
  rcases d with _ | ⟨x, xs⟩
  · exact rep_keeps rfl
  · have h := write_again o ((x :: xs).map fmt) fs
    unfold Repeats at h ⊢
    unfold FluxesWriter.writeFluxesFile
    simp only
    rcases hw : writeLines o ((x :: xs).map fmt) fs with ⟨r, fs1⟩
    rw [hw] at h
    simp only at h
    cases r with
    | error e => simp only; rw [h]
    | ok u => simp only; rw [h]

private theorem lines_put {fs : FS} {p q c : Str} (h : p ≠ q) : (getLines p (fs.put q (.file c))).1 = (getLines p fs).1 := by
  have : (fs.put q (.file c)).node p = fs.node p := if_neg h
  cases hn : fs.node p with
  | none => rw [getLines_none hn, getLines_none (this.trans hn)]
  | some nd =>
    cases nd with
    | dir => rw [getLines_dir hn, getLines_dir (this.trans hn)]
    | file c => rw [getLines_file hn, getLines_file (this.trans hn)]

private theorem lines_snd (p : Str) (fs : FS) : (getLines p fs).2 = fs := (C241_get_lines p).keeps fs

private theorem first_at {lines : List Str} {k : Nat} (h : findLine p!"      run terminated when" lines 25 = .ok k) :
    findLine p!"      run terminated when" (lines.drop k) 25 = .ok 0 := by
  rw [C03_find_line_ok] at h ⊢
  obtain ⟨l, hl, ht⟩ := h.1
  exact ⟨⟨l, by rw [List.getElem?_drop, Nat.add_zero]; exact hl, ht⟩, fun _ _ => by omega⟩

/-- C294: the program that reduces output files, also when a file is replaced by its own end. -/
theorem C294_reduce (p o : Str) (fs : FS) : Repeats (Programs.ofileReduce p o) fs := by
  show Repeats (OfileReduce.reduceOfile p o) fs
  have hs := lines_snd p fs
  rcases hg : getLines p fs with ⟨r, fs1⟩
  rw [hg] at hs
  replace hs : fs1 = fs := hs
  subst hs
  have e : ∀ fs2, OfileReduce.reduceOfile p o fs2 = (getLines p >>= fun lines => PyM.lift (findLine p!"      run terminated when" lines 25) >>= fun k =>
      writeLines o (lines.drop k)) fs2 := fun _ => rfl
  cases r with
  | error x => exact rep_keeps (by rw [e, PyM.bind_err hg])
  | ok lines =>
    cases hf : findLine p!"      run terminated when" lines 25 with
    | error x => exact rep_keeps (by rw [e, PyM.bind_ok hg, hf]; rfl)
    | ok k =>
      have h1 : OfileReduce.reduceOfile p o fs1 = writeLines o (lines.drop k) fs1 := by
        rw [e, PyM.bind_ok hg, hf, PyM.bind_ok (PyM.lift_run _ _)]
      cases hc : fs1.canWrite o with
      | false => exact rep_keeps (by rw [h1, writeLines_err _ hc])
      | true =>
        have hw := writeLines_ok (lines.drop k) hc
        unfold Repeats
        rw [h1, hw]
        simp only
        by_cases hpo : p = o
        · subst hpo
          have hnb : ∀ l ∈ lines, Spec.NoBoundary l := by
            cases hn : fs1.node p with
            | none => rw [getLines_none hn] at hg; cases hg
            | some nd =>
              cases nd with
              | dir => rw [getLines_dir hn] at hg; cases hg
              | file c =>
                obtain ⟨ls, h2, h3, _⟩ := C02_lines_clean fs1 p c hn
                rw [hg] at h2
                cases h2
                exact h3
          have hr := (C01_round_trip_iff fs1 p (lines.drop k) hc).2.2 (fun l hl => hnb l (List.mem_of_mem_drop hl))
          rw [hw] at hr
          simp only at hr
          have hg2 : getLines p _ = (_, _) := Prod.ext hr (lines_snd p _)
          rw [e, PyM.bind_ok hg2, first_at hf, PyM.bind_ok (PyM.lift_run _ _), List.drop_zero]
          exact C01_again p _ fs1 _ hw
        · have hr : (getLines p (fs1.put o (.file ((lines.drop k).flatMap (fun l => l ++ ['\n']))))).1 = .ok lines := by
            rw [lines_put hpo, hg]
          have hg2 : getLines p _ = (_, _) := Prod.ext hr (lines_snd p _)
          rw [e, PyM.bind_ok hg2, hf, PyM.bind_ok (PyM.lift_run _ _)]
          exact C01_again o _ fs1 _ hw

private theorem then_snd {β : Type} {m : PyM α} {g : α → β} {fs : FS} : ((m >>= fun x => pure (g x)) fs).2 = (m fs).2 := by
  rw [PyM.bind_run]
  rcases m fs with ⟨r, fs1⟩
  cases r <;> rfl

private theorem rep_then {β : Type} {m : PyM α} {fs : FS} (g : α → β) (h : Repeats m fs) : Repeats (m >>= fun x => pure (g x)) fs := by
  unfold Repeats at h ⊢
  rw [then_snd, PyM.bind_run, PyM.bind_run, h]

private theorem rep_read {f : Str → PyM α} {p : Str} {fs : FS} (h : ∀ t, Repeats (f t) fs) (hk : ∀ t, (f t fs).2.node p = fs.node p) :
    Repeats (readText p >>= f) fs := by
  cases hn : fs.node p with
  | none => exact rep_keeps (by rw [PyM.bind_err (show readText p fs = _ by unfold readText; rw [hn])])
  | some nd =>
    cases nd with
    | dir => exact rep_keeps (by rw [PyM.bind_err (show readText p fs = _ by unfold readText; rw [hn])])
    | file c =>
      unfold Repeats
      rw [PyM.bind_ok (show readText p fs = (.ok (univNL c), fs) by unfold readText; rw [hn]),
        PyM.bind_ok (show readText p (f (univNL c) fs).2 = (.ok (univNL c), (f (univNL c) fs).2) by unfold readText; rw [hk, hn])]
      exact h _

/-- C294: the program for lost points, if its table does not replace its input. -/
theorem C294_lost {F : Type} (flt : Str → Option F) (str : F → Str) (p : Str) (fs : FS) :
    (∀ o, o ≠ [] → p ≠ o ++ p!".3d" → Repeats (Programs.lostPoints flt str p (some o)) fs) ∧
    (∀ o, o = none ∨ o = some [] → p ≠ p!"lost.3d" → Repeats (Programs.lostPoints flt str p o) fs) := by
  have key : ∀ q : Str, p ≠ q ++ p!".3d" → Repeats (Programs.discard (LostPoints.outputLostPoints flt str p q)) fs := by
    intro q hq
    have e : ∀ fs2, Programs.discard (LostPoints.outputLostPoints flt str p q) fs2 = (readText p >>= fun text =>
        PyM.lift (LostPoints.scan flt (keepLines text)) >>= fun pts => Programs.discard (
          if 0 < pts.length then do
            OutputUtilities.outputPoints str str (pts.map (·.1)) (pts.map (·.2.1)) (pts.map (·.2.2)) none q
            pure pts.length
          else pure pts.length)) fs2 := by
      intro fs2
      unfold LostPoints.outputLostPoints Programs.discard
      simp only [PyM.bind_run]
      rcases readText p fs2 with ⟨r, fs3⟩
      cases r with
      | error e => rfl
      | ok t =>
        simp only [PyM.lift_run]
        cases LostPoints.scan flt (keepLines t) with
        | error e => rfl
        | ok pts => rfl
    have hp : ∀ pts : List (F × F × F), WritesOnly (q ++ p!".3d") (OutputUtilities.outputPoints str str (pts.map (·.1)) (pts.map (·.2.1)) (pts.map (·.2.2)) none q) :=
      fun pts => C242_output_points _ _ _ _ _ _ _
    have hr : ∀ pts : List (F × F × F), Repeats (OutputUtilities.outputPoints str str (pts.map (·.1)) (pts.map (·.2.1)) (pts.map (·.2.2)) none q) fs := by
      intro pts
      unfold OutputUtilities.outputPoints
      split
      · exact rep_keeps rfl
      · exact write_again _ _ _
    have : Repeats (readText p >>= fun text =>
        PyM.lift (LostPoints.scan flt (keepLines text)) >>= fun pts => Programs.discard (
          if 0 < pts.length then do
            OutputUtilities.outputPoints str str (pts.map (·.1)) (pts.map (·.2.1)) (pts.map (·.2.2)) none q
            pure pts.length
          else pure pts.length)) fs := by
      refine rep_read (fun t => rep_lift (fun pts => rep_then _ ?_)) (fun t => ?_)
      · split
        · exact rep_then _ (hr pts)
        · exact rep_keeps rfl
      · cases LostPoints.scan flt (keepLines t) with
        | error e => rfl
        | ok pts =>
          rw [PyM.bind_ok (PyM.lift_run _ _)]
          unfold Programs.discard
          rw [then_snd]
          split
          · rw [then_snd]
            exact ((hp pts).others fs).2 p hq
          · rfl
    unfold Repeats at this ⊢
    rw [e fs, e]
    exact this
  constructor
  · intro o ho hp
    cases o with
    | nil => exact absurd rfl ho
    | cons c o => exact key (c :: o) hp
  · rintro o (rfl | rfl) hp
    · exact key p!"lost" hp
    · exact key p!"lost" hp

private def repFs : FS := ⟨fun q => if q = p!"in" then some (.file p!"head\n      run terminated when x\nend\n") else none, fun _ => true⟩
-- the first run does change something
example : (Programs.ofileReduce p!"in" p!"out" repFs).1 = .ok () := rfl
example : (Programs.ofileReduce p!"in" p!"out" repFs).2.node p!"out" = some (.file p!"      run terminated when x\nend\n") := rfl
example : (Programs.ofileReduce p!"in" p!"in" repFs).2.node p!"in" = some (.file p!"      run terminated when x\nend\n") := rfl
-- a program that appends does not repeat
example : ¬ Repeats (do let ls ← getLines p!"in"; writeLines p!"in" (ls ++ [p!"x"])) repFs := by
  intro h
  have := congrArg (fun r => r.2.node p!"in") h
  revert this
  decide
example : p!"out" ≠ p!"lost.3d" ∧ p!"mylost" ≠ [] := by decide

end Props
