/-
C280: line ends and empty lines at the end of files.
-/
import Verif.Props.Readers
import Verif.Props.InputEnds
import Verif.Props.MeshtalReader
import Verif.Props.CutOff
import Verif.Model.Misc
import Verif.Proofs.Lines
import Verif.Proofs.NeutUtilities

namespace Props
open Py NeutUtilities

private theorem splitlines_nl (s : Str) : splitlines (s ++ ['\n']) = splitlines s ∨ splitlines (s ++ ['\n']) = splitlines s ++ [[]] := by
  fun_induction splitlines s with
  | case1 => right; decide
  | case2 cs ih =>
    simp only [List.cons_append, splitlines]
    rcases ih with h | h <;> simp [h]
  | case3 c cs hx hb ih =>
    by_cases hc : c = '\r'
    · subst hc
      cases cs with
      | nil => left; decide
      | cons d ds =>
        have hd : d ≠ '\n' := by rintro rfl; exact hx ds rfl rfl
        have e : ∀ t : Str, splitlines ('\r' :: d :: t) = [] :: splitlines (d :: t) := by
          intro t
          rw [splitlines.eq_3 _ _ (by intro cs' _ h; cases h; exact hd rfl)]
          simp [hb]
        rw [List.cons_append, List.cons_append, e]
        rw [List.cons_append] at ih
        rcases ih with h | h
        · left; rw [h]
        · right; rw [h]; rfl
    · rw [List.cons_append, splitlines_cons_pos hb hc]
      rcases ih with h | h
      · left; rw [h]
      · right; rw [h]; rfl
  | case4 c cs hx hb h0 ih =>
    have hb' : isLineBreak c = false := by simpa using hb
    rw [List.cons_append, splitlines_cons_neg hb']
    rw [h0] at ih
    rcases ih with h | h <;> simp [h]
  | case5 c cs hx hb l ls h0 ih =>
    have hb' : isLineBreak c = false := by simpa using hb
    rw [List.cons_append, splitlines_cons_neg hb']
    rw [h0] at ih
    rcases ih with h | h <;> simp [h]

private theorem univNL_nl (s : Str) : univNL (s ++ ['\n']) = univNL s ∨ univNL (s ++ ['\n']) = univNL s ++ ['\n'] := by
  fun_induction univNL s with
  | case1 => right; decide
  | case2 cs ih =>
    simp only [List.cons_append, univNL]
    rcases ih with h | h <;> simp [h]
  | case3 c cs hx ih =>
    by_cases hc : c = '\r'
    · subst hc
      cases cs with
      | nil => left; decide
      | cons d ds =>
        have hd : d ≠ '\n' := by rintro rfl; exact hx ds rfl rfl
        have e : ∀ t : Str, univNL ('\r' :: d :: t) = '\n' :: univNL (d :: t) := by
          intro t
          rw [univNL.eq_3 _ _ (by intro cs' _ h; cases h; exact hd rfl)]
          simp
        rw [List.cons_append, List.cons_append, e]
        rw [List.cons_append] at ih
        rcases ih with h | h
        · left; rw [h]; simp
        · right; rw [h]; simp
    · rw [List.cons_append, univNL_cons hc, if_neg hc]
      rcases ih with h | h
      · left; rw [h]
      · right; rw [h]; rfl

/-- Line ends written behind a text end its last line and give empty lines. -/
theorem lines_nl (c : Str) (n : Nat) : ∃ m, splitlines (univNL (c ++ List.replicate n '\n')) = splitlines (univNL c) ++ List.replicate m [] := by
  induction n with
  | zero => exact ⟨0, by simp⟩
  | succ n ih =>
    obtain ⟨m, ih⟩ := ih
    rw [List.replicate_succ', ← List.append_assoc]
    rcases univNL_nl (c ++ List.replicate n '\n') with h | h
    · exact ⟨m, by rw [h, ih]⟩
    · rw [h]
      rcases splitlines_nl (univNL (c ++ List.replicate n '\n')) with h | h
      · exact ⟨m, by rw [h, ih]⟩
      · exact ⟨m + 1, by rw [h, ih, List.replicate_succ', List.append_assoc]⟩

/-- C280: line ends behind the last line of a file give empty lines at most. -/
theorem C280_lines (fs fs' : FS) (path path' c : Str) (n : Nat) (h : fs.node path = some (.file c))
    (h' : fs'.node path' = some (.file (c ++ List.replicate n '\n'))) :
    ∃ lines m, (getLines path fs).1 = .ok lines ∧ (getLines path' fs').1 = .ok (lines ++ List.replicate m []) := by
  obtain ⟨m, hm⟩ := lines_nl c n
  exact ⟨_, m, by rw [getLines_file h], by rw [getLines_file h', hm]⟩

section xsdir
open Xsdir
variable {F : Type}

private theorem datapath_end (ls : List Str) (m : Nat) : processDatapath (ls ++ List.replicate m []) = processDatapath ls := by
  induction ls with
  | nil =>
    induction m with
    | zero => rfl
    | succ m ih => simp only [List.nil_append, List.replicate_succ] at ih ⊢; rw [← ih]; conv_lhs => rw [processDatapath, if_neg (by decide)]
  | cons l ls ih => rw [List.cons_append, processDatapath, processDatapath, ih]

private theorem awr_end (flt : Str → Option F) (ls : List Str) (m : Nat) (b : Bool) (d : Dict Str F) :
    awrLoop flt b d (ls ++ List.replicate m []) = awrLoop flt b d ls := by
  induction ls generalizing b d with
  | nil =>
    induction m with
    | zero => rfl
    | succ m ih =>
      simp only [List.nil_append, List.replicate_succ] at ih ⊢
      conv_lhs => rw [awrLoop]
      have h1 : startsWith (strip []) p!"atomic" = false := by decide
      have h2 : startsWith (strip []) p!"directory" = false := by decide
      have h3 : splitWs (strip []) = [] := by decide
      simp only [h1, h2, h3, Bool.false_eq_true, if_false, ih, ite_self]
  | cons l ls ih =>
    rw [List.cons_append, awrLoop, awrLoop]
    simp only [ih]

private theorem dir_end (ls : List Str) (m : Nat) (b : Bool) (d : Dict Str (List Str)) : dirLoop b d (ls ++ List.replicate m []) = dirLoop b d ls := by
  induction ls generalizing b d with
  | nil =>
    induction m with
    | zero => rfl
    | succ m ih =>
      simp only [List.nil_append, List.replicate_succ] at ih ⊢
      conv_lhs => rw [dirLoop]
      have h2 : startsWith (strip []) p!"directory" = false := by decide
      have h3 : splitWs [] = [] := by decide
      simp only [h2, h3, Bool.false_eq_true, if_false, ih, ite_self]
  | cons l ls ih =>
    rw [List.cons_append, dirLoop, dirLoop]
    simp only [ih]

private theorem thermal_end (ls : List Str) (m : Nat) (b : Bool) (d : Dict Str (List Str)) :
    thermalLoop b d (ls ++ List.replicate m []) = thermalLoop b d ls := by
  induction ls generalizing b d with
  | nil =>
    induction m with
    | zero => rfl
    | succ m ih =>
      simp only [List.nil_append, List.replicate_succ] at ih ⊢
      conv_lhs => rw [thermalLoop]
      simp only [show strip [] = [] by decide, decide_true, Bool.true_or, if_true, ih]
  | cons l ls ih =>
    rw [List.cons_append, thermalLoop, thermalLoop]
    simp only [ih]

/-- C280: xsdir files. -/
theorem C280_xsdir (flt : Str → Option F) (fs fs' : FS) (path c : Str) (n : Nat) (h : fs.node path = some (.file c))
    (h' : fs'.node path = some (.file (c ++ List.replicate n '\n'))) : (readXsdir flt path fs').1 = (readXsdir flt path fs).1 := by
  obtain ⟨m, hm⟩ := lines_nl c n
  unfold readXsdir
  rw [PyM.bind_ok (getLines_file h), PyM.bind_ok (getLines_file h'), hm]
  have e1 : processAwr flt (splitlines (univNL c) ++ List.replicate m []) = processAwr flt (splitlines (univNL c)) := awr_end _ _ _ _ _
  have e2 : processDirectory (splitlines (univNL c) ++ List.replicate m []) = processDirectory (splitlines (univNL c)) := dir_end _ _ _ _
  have e3 : processThermal (splitlines (univNL c) ++ List.replicate m []) = processThermal (splitlines (univNL c)) := thermal_end _ _ _ _
  rw [e1, e2, e3, datapath_end]
  cases processDatapath (splitlines (univNL c)) with
  | error e => rfl
  | ok dp => cases processAwr flt (splitlines (univNL c)) <;> rfl

end xsdir

section ptrac
open Ptrac
variable {F : Type}

private theorem tracks_end (flt : Str → Option F) (ls : List Str) (m : Nat) (hs : List (Option (History F))) (cur : Option (History F)) (temp : Option (List Str)) :
    tracksLoop flt hs cur temp (ls ++ List.replicate m []) = tracksLoop flt hs cur temp ls := by
  induction ls generalizing hs cur temp with
  | nil =>
    induction m generalizing temp with
    | zero => rfl
    | succ m ih =>
      simp only [List.nil_append, List.replicate_succ] at ih ⊢
      conv_lhs => rw [tracksLoop.eq_def]
      have h : stringCleanAndSplit [] = [[]] := by decide
      simp only [h, List.length_singleton]
      rw [if_neg (by decide), if_neg (by decide), ih]
      simp only [tracksLoop]
  | cons l ls ih =>
    rw [List.cons_append]
    conv_lhs => rw [tracksLoop.eq_def]
    conv_rhs => rw [tracksLoop.eq_def]
    simp only [ih]

/-- C280: track files. -/
theorem C280_ptrac (flt : Str → Option F) (fs fs' : FS) (path path' c : Str) (n : Nat) (h : fs.node path = some (.file c))
    (h' : fs'.node path' = some (.file (c ++ List.replicate n '\n'))) : (readPtrac flt path' fs').1 = (readPtrac flt path fs).1 := by
  obtain ⟨m, hm⟩ := lines_nl c n
  unfold readPtrac
  rw [PyM.bind_ok (getLines_file h), PyM.bind_ok (getLines_file h'), hm]
  have : processTracks flt (removeHeader (splitlines (univNL c) ++ List.replicate m [])).2 = processTracks flt (removeHeader (splitlines (univNL c))).2 := by
    unfold processTracks removeHeader
    simp only
    rw [List.drop_append, List.drop_replicate, tracks_end]
  rw [this]
  cases processTracks flt (removeHeader (splitlines (univNL c))).2 <;> rfl

end ptrac

section printlib
open Printlib
variable {F : Type}

private theorem keep_nl (s : Str) : keepLines (s ++ ['\n']) = keepLines s ++ [['\n']] ∨
    ∃ a l, keepLines s = a ++ [l] ∧ keepLines (s ++ ['\n']) = a ++ [l ++ ['\n']] := by
  induction s with
  | nil => left; decide
  | cons c cs ih =>
    rw [List.cons_append, keepLines, keepLines]
    by_cases hc : c = '\n'
    · rw [if_pos hc, if_pos hc]
      rcases ih with h | ⟨a, l, h1, h2⟩
      · left; rw [h]; rfl
      · right; exact ⟨[c] :: a, l, by rw [h1]; rfl, by rw [h2]; rfl⟩
    · rw [if_neg hc, if_neg hc]
      rcases ih with h | ⟨a, l, h1, h2⟩
      · rw [h]
        cases keepLines cs with
        | nil => right; exact ⟨[], [c], rfl, rfl⟩
        | cons x xs => left; rfl
      · rw [h1, h2]
        cases a with
        | nil => right; exact ⟨[], c :: l, rfl, rfl⟩
        | cons x xs => right; exact ⟨(c :: x) :: xs, l, rfl, rfl⟩

private theorem scan_one {flt : Str → Option F} {s : State F} {y : Str} {t : List (Row F)} (h : scan flt s [y] = .ok (some t)) :
    hasSub p!"fispact run time" y = true ∧ t = s.rows := by
  simp only [scan] at h
  split at h
  · rename_i h'; exact ⟨h', by simpa using h.symm⟩
  · exfalso
    revert h
    repeat' split
    all_goals simp

private theorem scan_app {flt : Str → Option F} {b b' : List Str} {t : List (Row F)} (hb : ∀ s, scan flt s b = .ok (some t) → scan flt s b' = .ok (some t)) (a : List Str) (s : State F)
    (h : scan flt s (a ++ b) = .ok (some t)) : scan flt s (a ++ b') = .ok (some t) := by
  induction a generalizing s with
  | nil => exact hb s h
  | cons x a ih =>
    rw [List.cons_append, scan] at h ⊢
    by_cases h1 : hasSub p!"fispact run time" x = true
    · rw [if_pos h1] at h ⊢; exact h
    · rw [if_neg h1] at h ⊢
      by_cases h2 : s.inDiscrete = true
      · rw [if_pos h2] at h ⊢
        cases hd : discreteLine flt s x with
        | error e => rw [hd] at h; simp at h
        | ok s' => rw [hd] at h; exact ih s' h
      · rw [if_neg h2] at h ⊢
        split_ifs at h ⊢ <;> exact ih _ h

private theorem sub_nl (l : Str) : hasSub p!"fispact run time" (l ++ ['\n']) = hasSub p!"fispact run time" l := by
  rw [Bool.eq_iff_iff, hasSub_iff, hasSub_iff, List.infix_concat_iff]
  constructor
  · rintro (h | h)
    · obtain ⟨a, ha⟩ := h
      have := congrArg List.getLast? ha
      simp at this
    · exact h
  · exact .inr

private theorem scan_nl (flt : Str → Option F) (c : Str) (t : List (Row F)) (s : State F) :
    scan flt s (keepLines (c ++ ['\n'])) = .ok (some t) ↔ scan flt s (keepLines c) = .ok (some t) := by
  rcases keep_nl c with h | ⟨a, l, h1, h2⟩
  · rw [h]
    constructor
    · intro h'
      have := scan_app (b := [['\n']]) (b' := []) (fun s h => absurd (scan_one h).1 (by decide)) _ _ h'
      rwa [List.append_nil] at this
    · intro h'
      refine scan_app (b := []) (b' := [['\n']]) (fun s h => ?_) _ _ (by rwa [List.append_nil])
      rw [scan] at h; simp at h
  · rw [h1, h2]
    constructor <;> intro h'
    · refine scan_app (fun s h => ?_) _ _ h'
      obtain ⟨h3, rfl⟩ := scan_one h
      rw [sub_nl] at h3
      rw [scan, if_pos h3]
    · refine scan_app (fun s h => ?_) _ _ h'
      obtain ⟨h3, rfl⟩ := scan_one h
      rw [← sub_nl] at h3
      rw [scan, if_pos h3]

private theorem scan_end (flt : Str → Option F) (c : Str) (n : Nat) (t : List (Row F)) (s : State F) :
    scan flt s (keepLines (univNL (c ++ List.replicate n '\n'))) = .ok (some t) ↔ scan flt s (keepLines (univNL c)) = .ok (some t) := by
  induction n with
  | zero => simp
  | succ n ih =>
    rw [List.replicate_succ', ← List.append_assoc, ← ih]
    rcases univNL_nl (c ++ List.replicate n '\n') with h | h
    · rw [h]
    · rw [h]; exact scan_nl flt _ t s

/-- C280: emission line lists. -/
theorem C280_printlib (flt : Str → Option F) (fs fs' : FS) (path path' c : Str) (n : Nat) (h : fs.node path = some (.file c))
    (h' : fs'.node path' = some (.file (c ++ List.replicate n '\n'))) (t : List (Row F)) :
    (read flt path' fs').1 = .ok t ↔ (read flt path fs).1 = .ok t := by
  have key : ∀ (fs : FS) (path c : Str), fs.node path = some (.file c) →
      ((read flt path fs).1 = .ok t ↔ scan flt ⟨[], none, false, false⟩ (keepLines (univNL c)) = .ok (some t)) := by
    intro fs path c h
    unfold Printlib.read
    rw [h]
    simp only
    split <;> simp_all
  rw [key _ _ _ h, key _ _ _ h', scan_end]

end printlib

section log

/-- C280: the log of a run. -/
theorem C280_log {F T : Type} (flt : Str → Option F) (date : Str → Option T) (fs fs' : FS) (path path' c : Str) (n : Nat) (h : fs.node path = some (.file c))
    (h' : fs'.node path' = some (.file (c ++ List.replicate n '\n'))) : (RunPlot.plotNpsStats flt date path' fs').1 = (RunPlot.plotNpsStats flt date path fs).1 := by
  obtain ⟨m, hm⟩ := lines_nl c n
  unfold RunPlot.plotNpsStats
  rw [PyM.bind_ok (getLines_file h), PyM.bind_ok (getLines_file h'), hm]
  have one : ∀ st : RunPlot.Stats F T, RunPlot.step flt date st [] = .ok st := fun st => rfl
  have many : ∀ (m : Nat) (st : RunPlot.Stats F T), (List.replicate m []).foldlM (RunPlot.step flt date) st = .ok st := by
    intro m
    induction m with
    | zero => intro st; rfl
    | succ m ih => intro st; rw [List.replicate_succ, List.foldlM_cons, one, ex_ok_bind, ih]
  have : RunPlot.figure flt date (splitlines (univNL c) ++ List.replicate m []) = RunPlot.figure flt date (splitlines (univNL c)) := by
    unfold RunPlot.figure
    rw [List.foldlM_append]
    cases (splitlines (univNL c)).foldlM (RunPlot.step flt date) ⟨[], [], [], [], []⟩ with
    | error e => rfl
    | ok st => rw [ex_ok_bind, many]
  rw [this]
  cases RunPlot.figure flt date (splitlines (univNL c)) <;> rfl

end log

section input
open McnpInput
variable {F : Type}

/-- C280: MCNP inputs that can be read. -/
theorem C280_input (flt : Str → Option F) (fs fs' : FS) (path path' c : Str) (n : Nat) (h : fs.node path = some (.file c))
    (h' : fs'.node path' = some (.file (c ++ List.replicate n '\n'))) (i : Input F) (hi : (readMcnpInput flt path fs).1 = .ok i) :
    ∃ j, (readMcnpInput flt path' fs').1 = .ok j ∧ SameCards j i := by
  obtain ⟨m, hm⟩ := lines_nl c n
  have e1 : (readMcnpInput flt path fs).1 = readLines flt path (splitlines (univNL c)) := by
    unfold readMcnpInput
    rw [PyM.bind_ok (getLines_file h)]
    cases readLines flt path (splitlines (univNL c)) <;> rfl
  have e2 : (readMcnpInput flt path' fs').1 = readLines flt path' (splitlines (univNL c) ++ List.replicate m []) := by
    unfold readMcnpInput
    rw [PyM.bind_ok (getLines_file h'), hm]
    cases readLines flt path' (splitlines (univNL c) ++ List.replicate m []) <;> rfl
  rw [e1] at hi
  rw [e2]
  have hb : ∃ b, splitBlocs (splitlines (univNL c)) = .ok b := by
    unfold readLines at hi
    cases hb : splitBlocs (splitlines (univNL c)) with
    | error e => rw [hb] at hi; cases hi
    | ok b => exact ⟨b, rfl⟩
  have := C261_partial flt path' path hb (tail := List.replicate m []) (fun l hl => by
    rw [List.eq_of_mem_replicate hl]; intro c hc; cases hc)
  rw [hi] at this
  rcases this with ⟨j, i', h1, h2, h3⟩ | ⟨e, _, h2⟩
  · cases h2; exact ⟨j, h1, h3⟩
  · cases h2

/-- Two empty lines behind `x`, and none. -/
example : ∃ c : Str, splitlines (univNL (p!"x" ++ List.replicate 3 '\n')) = splitlines (univNL p!"x") ++ List.replicate 2 c := ⟨[], by decide⟩
example : splitlines (univNL (p!"x\ny\r" ++ List.replicate 1 '\n')) = splitlines (univNL p!"x\ny\r") := by decide

end input

section mesh
open Meshtal
variable {K : Type} [Field K] [LinearOrder K] [IsStrictOrderedRing K] [FloorRing K]

/-- C280 fails: an empty line at the end of a mesh tally file is a row of the table of its last mesh. -/
theorem C280_mesh_violated (flt : Str → Option K) (numeric : Str → Option (Option K)) (pre : List Str) (secs : List Sec) (s : Sec) (text : Str)
    (hf : FileOf flt pre (secs ++ [s]) text) (hd : ∀ t ∈ secs ++ [s], DataWF numeric t) (hk : ∀ t ∈ (secs ++ [s]).tail, t.kind ≠ .e6)
    (hne : s.body ≠ []) (hend : keepLines (text ++ ['\n']) = keepLines text ++ [['\n']]) :
    ∃ ms m m', readMeshtallyText flt numeric none text = .ok (.all (ms ++ [m])) ∧
      readMeshtallyText flt numeric none (text ++ ['\n']) = .ok (.all (ms ++ [m'])) ∧ m'.data.rows.length = m.data.rows.length + 1 := by
  obtain ⟨hw, hn⟩ := hf.secs s (by simp)
  have hf' : FileOf flt pre (secs ++ [{ s with body := s.body ++ [['\n']] }]) (text ++ ['\n']) := by
    refine ⟨by rw [hend, hf.lines]; simp [Sec.lines], hf.pre, fun t ht => ?_⟩
    rcases List.mem_append.1 ht with h | h
    · exact hf.secs t (by simp [h])
    · rw [List.mem_singleton.1 h]
      refine ⟨⟨hw.num1, hw.num2, hw.num3, hw.num4, hw.hdr, hw.tit1, hw.tit2, hw.tit3, hw.tit4, hw.tit5, fun l hl => ?_⟩, hn⟩
      rcases List.mem_append.1 hl with h | h
      · exact hw.body l h
      · rw [List.mem_singleton.1 h]; decide
  obtain ⟨hd1, hd2⟩ := hd s (by simp)
  obtain ⟨ms, m', m, h1, h2, h3, h4⟩ := C277_mesh_violated flt numeric pre secs { s with body := s.body ++ [['\n']] } s.body [['\n']] rfl (hd1 hne)
    (text ++ ['\n']) text hf' (by
      intro t ht
      rcases List.mem_append.1 ht with h | h
      · exact hd t (by simp [h])
      · rw [List.mem_singleton.1 h]
        refine ⟨fun _ => ?_, fun l hl => ?_⟩
        · obtain ⟨l, hl, hl'⟩ := hd1 hne
          exact ⟨l, by simp [hl], hl'⟩
        · rcases List.mem_append.1 hl with h | h
          · exact hd2 l h
          · rw [List.mem_singleton.1 h]; left; decide) (by
      intro t ht
      cases secs with
      | nil => simp at ht
      | cons u us =>
        simp only [List.cons_append, List.tail_cons, List.mem_append, List.mem_singleton] at ht
        rcases ht with h | rfl
        · exact hk t (by simp [h])
        · exact hk s (by simp)) hend.symm
  refine ⟨ms, m, m', h2, h1, ?_⟩
  rw [h3.2, h4.2]
  have hkept : kept s.kind ['\n'] = true := by
    have : splitWs ['\n'] = [] := by decide
    simp [kept, this]
  simp [List.zipIdx_append, List.filter_append, hkept]

example : ∃ t : Str, keepLines (t ++ ['\n']) = keepLines t ++ [['\n']] := ⟨p!"a\n", by decide⟩

end mesh
end Props
