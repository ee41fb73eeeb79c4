/- Properties C21-C30: fispact_printlib_reader.py, xsdir_reader.py, mcnp_ptrac_reader.py. -/
import Verif.Proofs.Printlib
import Verif.Proofs.Readers
import Verif.Props.NeutUtilities
import Mathlib.Tactic.Ring
import Mathlib.Tactic.FieldSimp

namespace Props
open Py NeutUtilities

/-! ### C21 -/

section
open Printlib
variable {K : Type} [LinearOrder K]

/-- Both the energy and the threshold are numbers (not NaN) and the energy is strictly larger. -/
def Above (r : Row (Option K)) (t : Option K) : Prop := ∃ e t', r.energy = some e ∧ t = some t' ∧ t' < e

private theorem gtNaN_iff (r : Row (Option K)) (t : Option K) : gtNaN r.energy t = true ↔ Above r t := by
  unfold Above gtNaN
  cases r.energy <;> cases t <;> simp

open Classical in
/-- C21: each filter keeps, in order, exactly the matching rows. -/
theorem C21_filters (cols : List Str) (rows : List (Row (Option K))) (t : Option K) (p : Str)
    (h1 : p!"energy_ev" ∈ cols) (h2 : p!"particle" ∈ cols) :
    energyFilter (.frame cols rows) t = .ok (rows.filter (fun r => decide (Above r t))) ∧
    particleFilter (.frame cols rows) p = .ok (rows.filter (fun r => decide (r.particle = p))) := by
  refine ⟨?_, by simp [particleFilter, h2]⟩
  simp only [energyFilter, h1, not_true, if_false, Except.ok.injEq]
  apply List.filter_congr
  intro r _
  rw [Bool.eq_iff_iff, gtNaN_iff, decide_eq_true_eq]

/-- C21: what is not a table, or lacks the column, is rejected with ValueError. -/
theorem C21_rejects (cols : List Str) (rows : List (Row (Option K))) (t : Option K) (p : Str) :
    energyFilter (.other : Arg (Option K)) t = .error .ValueError ∧
    particleFilter (.other : Arg (Option K)) p = .error .ValueError ∧
    (p!"energy_ev" ∉ cols → energyFilter (.frame cols rows) t = .error .ValueError) ∧
    (p!"particle" ∉ cols → particleFilter (.frame cols rows) p = .error .ValueError) := by
  refine ⟨rfl, rfl, ?_, ?_⟩
  · intro h; simp [energyFilter, h]
  · intro h; simp [particleFilter, h]

/-- C21: the filters commute and are idempotent, and a higher threshold after a lower one is the higher one alone. -/
theorem C21_algebra (cols : List Str) (rows : List (Row (Option K))) (t u : K) (p : Str)
    (h1 : p!"energy_ev" ∈ cols) (h2 : p!"particle" ∈ cols) (htu : t ≤ u) :
    ∃ e ep pt, energyFilter (.frame cols rows) (some t) = .ok e ∧ particleFilter (.frame cols rows) p = .ok pt ∧
      particleFilter (.frame cols e) p = .ok ep ∧ energyFilter (.frame cols pt) (some t) = .ok ep ∧
      energyFilter (.frame cols e) (some t) = .ok e ∧ particleFilter (.frame cols pt) p = .ok pt ∧
      energyFilter (.frame cols e) (some u) = energyFilter (.frame cols rows) (some u) := by
  simp only [energyFilter, particleFilter, h1, h2, not_true, if_false, Except.ok.injEq]
  refine ⟨_, _, _, rfl, rfl, rfl, ?_, ?_, ?_, ?_⟩
  · rw [List.filter_comm]
  · simp [List.filter_filter]
  · simp [List.filter_filter]
  · rw [List.filter_filter]
    apply List.filter_congr
    intro r _
    rw [Bool.eq_iff_iff, Bool.and_eq_true, gtNaN_iff, gtNaN_iff]
    constructor
    · exact fun h => h.1
    · rintro ⟨e, t', he, ht, hlt⟩
      cases ht
      exact ⟨⟨e, _, he, rfl, hlt⟩, ⟨e, t, he, rfl, lt_of_le_of_lt htu hlt⟩⟩

/-- C21: with a NaN threshold nothing is kept. -/
theorem C21_nan (cols : List Str) (rows : List (Row (Option K))) (h1 : p!"energy_ev" ∈ cols) :
    energyFilter (.frame cols rows) none = .ok [] := by
  simp only [energyFilter, h1, not_true, if_false, Except.ok.injEq, List.filter_eq_nil_iff]
  intro r _
  rw [gtNaN_iff]
  rintro ⟨_, _, _, h, _⟩
  simp at h

end

example : p!"energy_ev" ∈ [p!"nuclide", p!"particle", p!"energy_ev"] := by decide

/-! ### C22, C23 -/

section
open Printlib Spec.Printlib
variable {F : Type}

private theorem isRow_iff (l : Str) : isRow l = decide (DataLine l) := by
  rw [Bool.eq_iff_iff, decide_eq_true_eq]
  unfold isRow DataLine
  rw [Bool.and_eq_true, Bool.not_eq_true', Bool.not_eq_true', hasSub_false_iff, hasSub_false_iff]

/-- The table describes the rows: one entry per row, in order, with the right particle, numbers and nuclide. -/
def Describes (flt : Str → Option F) (rows : List Str) (table : List (Row F)) : Prop :=
  table.length = rows.length ∧
  ∀ (i : Nat) (row : Row F), table[i]? = some row → ∃ line, rows[i]? = some line ∧
    (∃ ws, Spec.IsWords (slice line 25 34) ws ∧ row.particle = join p!" " ws) ∧
    flt (slice line 43 54) = some row.energy ∧ flt (slice line 71 82) = some row.intensity ∧
    NuclideAt rows i row.nuclide

private theorem describes_of_rowsFrom {flt : Str → Option F} {rows : List Str} {tbl : List (Row F)}
    (h : RowsFrom flt none rows tbl) : Describes flt rows tbl := by
  obtain ⟨h1, h2⟩ := rowsFrom_spec h
  refine ⟨h1, ?_⟩
  intro i row hrow
  obtain ⟨line, hl, hp, he, hi, hn⟩ := h2 i row hrow
  refine ⟨line, hl, ?_, he, hi, ?_⟩
  · exact ⟨splitWs (slice line 25 34), isWords_iff.2 rfl, by rw [hp, stringCleaner_eq]⟩
  · rcases hn with hn | ⟨hn, _⟩
    · exact hn
    · simp at hn

/-- C22: a well formed discrete section that is ended by the run time line gives exactly one row per data line. -/
theorem C22_table (flt : Str → Option F) (fs : FS) (fpath content : Str) (pre data rest : List Str) (fd rt : Str)
    (hnode : fs.node fpath = some (.file content))
    (hlines : keepLines (univNL content) = pre ++ fd :: data ++ rt :: rest)
    (hrt : p!"fispact run time" <:+: rt) (hrt' : ∀ l ∈ pre ++ fd :: data, ¬ p!"fispact run time" <:+: l)
    (hfd : p!" FD " <:+: fd) (hfd' : ∀ l ∈ pre, ¬ p!" FD " <:+: l)
    (hwf : WellFormed flt (data.filter (fun l => decide (DataLine l)))) :
    ∃ table, read flt fpath fs = (.ok table, fs) ∧
      Describes flt (data.filter (fun l => decide (DataLine l))) table := by
  have hdata : data.filter (fun l => decide (DataLine l)) = data.filter isRow := by
    apply List.filter_congr; intro l _; rw [isRow_iff]
  rw [hdata] at hwf ⊢
  obtain ⟨tbl, ht⟩ := exists_rowsFrom (carry := none) hwf.1 (fun _ => hwf.2)
  refine ⟨tbl, ?_, describes_of_rowsFrom ht⟩
  unfold Printlib.read
  rw [hnode]
  simp only
  rw [hlines]
  have := (scan_full (flt := flt) (pre ++ fd :: data) (rt :: rest) (fun l hl => hasSub_false_iff.2 (hrt' l hl))
    (Or.inr ⟨rt, rest, rfl, hasSub_iff.2 hrt⟩)).1 tbl
  rw [afterFD_split (hasSub_iff.2 hfd) (fun l hl => hasSub_false_iff.2 (hfd' l hl))] at this
  rw [this ht]
  rfl

/-- C22/C23: conversely a returned table is always the complete table of a file that has the run time line: it describes
    all data lines between the first ` FD ` line (if any) and the first run time line. -/
theorem C22_only_complete_tables (flt : Str → Option F) (fs : FS) (fpath : Str) (table : List (Row F))
    (h : (read flt fpath fs).1 = .ok table) :
    ∃ content before rt rest, fs.node fpath = some (.file content) ∧
      keepLines (univNL content) = before ++ rt :: rest ∧
      p!"fispact run time" <:+: rt ∧ (∀ l ∈ before, ¬ p!"fispact run time" <:+: l) ∧
      (((∀ l ∈ before, ¬ p!" FD " <:+: l) ∧ table = []) ∨
       ∃ pre fd data, before = pre ++ fd :: data ∧ p!" FD " <:+: fd ∧ (∀ l ∈ pre, ¬ p!" FD " <:+: l) ∧
        WellFormed flt (data.filter (fun l => decide (DataLine l))) ∧
        Describes flt (data.filter (fun l => decide (DataLine l))) table) := by
  unfold Printlib.read at h
  cases hn : fs.node fpath with
  | none => rw [hn] at h; simp at h
  | some n =>
    cases n with
    | dir => rw [hn] at h; simp at h
    | file content =>
      rw [hn] at h
      simp only at h
      rcases split_first isRT (keepLines (univNL content)) with hno | ⟨before, rt, rest, hl, hrt, hb⟩
      · have hs := scan_full (flt := flt) (keepLines (univNL content)) [] hno (Or.inl rfl)
        rw [List.append_nil] at hs
        by_cases hex : ∃ tbl, RowsFrom flt none ((afterFD (keepLines (univNL content))).filter isRow) tbl
        · obtain ⟨tbl, ht⟩ := hex
          rw [hs.1 tbl ht] at h; simp at h
        · obtain ⟨e, he⟩ := hs.2 hex
          rw [he] at h; simp at h
      · have hs := scan_full (flt := flt) before (rt :: rest) hb (Or.inr ⟨rt, rest, rfl, hrt⟩)
        rw [hl] at h
        by_cases hex : ∃ tbl, RowsFrom flt none ((afterFD before).filter isRow) tbl
        · obtain ⟨tbl, ht⟩ := hex
          rw [hs.1 tbl ht] at h
          simp at h
          subst h
          refine ⟨content, before, rt, rest, rfl, hl, hasSub_iff.1 hrt, fun l hl => hasSub_false_iff.1 (hb l hl), ?_⟩
          rcases split_first isFD before with hnofd | ⟨pre, fd, data, rfl, hfd, hpre⟩
          · left
            refine ⟨fun l hl => hasSub_false_iff.1 (hnofd l hl), ?_⟩
            rw [afterFD_none hnofd] at ht
            cases ht; rfl
          · right
            rw [afterFD_split hfd hpre] at ht
            have hdata : data.filter (fun l => decide (DataLine l)) = data.filter isRow := by
              apply List.filter_congr; intro l _; rw [isRow_iff]
            refine ⟨pre, fd, data, rfl, hasSub_iff.1 hfd, fun l hl => hasSub_false_iff.1 (hpre l hl), ?_, ?_⟩
            · rw [hdata]
              have := wellFormed_of_rowsFrom ht
              exact ⟨this.1, this.2 rfl⟩
            · rw [hdata]; exact describes_of_rowsFrom ht
        · obtain ⟨e, he⟩ := hs.2 hex
          rw [he] at h; simp at h

/-- C23 (part that holds): the exceptions for a missing path and a directory; a file with the run time line is either read
    or gives IOError; the file system is never changed. Missing: a file without the run time line gives
    UnboundLocalError instead of IOError (`C23_violated`), which is the only other outcome. -/
theorem C23_errors_partial (flt : Str → Option F) (fs : FS) (fpath : Str) :
    (read flt fpath fs).2 = fs ∧
    (fs.node fpath = none → (read flt fpath fs).1 = .error .FileNotFoundError) ∧
    (fs.node fpath = some .dir → (read flt fpath fs).1 = .error .ValueError) ∧
    ∀ content, fs.node fpath = some (.file content) → ∀ e, (read flt fpath fs).1 = .error e →
      e = .OSError ∨ (e = .UnboundLocalError ∧
        ∀ l ∈ keepLines (univNL content), ¬ p!"fispact run time" <:+: l) := by
  unfold Printlib.read
  refine ⟨?_, ?_, ?_, ?_⟩
  · split
    · rfl
    · rfl
    · split <;> rfl
  · intro h; rw [h]
  · intro h; rw [h]
  · intro content h e he
    rw [h] at he
    simp only at he
    rcases split_first isRT (keepLines (univNL content)) with hno | ⟨before, rt, rest, hl, hrt, hb⟩
    · split at he
      · left; simp at he; exact he.symm
      · right; simp at he; exact ⟨he.symm, fun l hl => hasSub_false_iff.1 (hno l hl)⟩
      · simp at he
    · rw [hl] at he
      have hs := scan_full (flt := flt) before (rt :: rest) hb (Or.inr ⟨rt, rest, rfl, hrt⟩)
      by_cases hex : ∃ tbl, RowsFrom flt none ((afterFD before).filter isRow) tbl
      · obtain ⟨tbl, ht⟩ := hex
        rw [hs.1 tbl ht] at he
        simp at he
      · obtain ⟨e', he'⟩ := hs.2 hex
        rw [he'] at he
        simp at he
        exact Or.inl he.symm

/-- C23 is violated: an empty file, or any file that is cut off before the run time line, is not reported as IOError. -/
theorem C23_violated :
    (∃ (fs : FS) (fpath : Str), fs.node fpath = some (.file p!"some text\n") ∧
      ∀ flt : Str → Option Nat, (read flt fpath fs).1 = .error .UnboundLocalError) ∧
    Err.UnboundLocalError ≠ Err.OSError := by
  refine ⟨⟨exFS p!"some text\n", p!"f", by decide, ?_⟩, by decide⟩
  intro flt
  rfl

/-- A printlib text for the examples: header, ` FD ` line, column titles, two rows, run time line. -/
def exPrintlib : Str :=
  p!"junk\n ( FD )\n  Type\n  H  3                   beta                5       " ++
  p!"                     7           \n" ++
  p!"                         gamma               6       " ++
  p!"                     8           \n" ++ p!"fispact run time\n"

/-- A float parser for the examples: natural numbers surrounded by blanks. -/
def exFltWs (s : Str) : Option Nat := pyNat (strip s)

example : ((read exFltWs p!"f" (exFS exPrintlib)).1.toOption.map (fun t => t.map (fun r =>
    (r.nuclide, r.particle, r.energy, r.intensity)))) =
    some [(p!"H3", p!"beta", 5, 7), (p!"H3", p!"gamma", 6, 8)] := by decide

end

/-! ### C24, C25, C26 -/

section
open Xsdir
variable {F : Type}

/-- A line of the directory section defining table `k` with fields `v`. -/
def DirEntry (l k : Str) (v : List Str) : Prop :=
  ¬ p!"directory" <+: strip l ∧ v ≠ [] ∧ Spec.IsWords l (k :: v)

private theorem dirEntry_iff (l k : Str) (v : List Str) : dirEntry l = some (k, v) ↔ DirEntry l k v := by
  unfold dirEntry DirEntry
  rw [isWords_iff, ← startsWith_iff]
  by_cases h : startsWith (strip l) p!"directory" = true
  · simp [h]
  · rw [if_neg h, and_iff_right h]
    rcases hw : splitWs l with _ | ⟨k', _ | ⟨v', vs⟩⟩
    · simp
    · constructor
      · simp
      · rintro ⟨h1, h2⟩
        simp at h2
        exact absurd h2.2 h1
    · constructor
      · intro h; simp at h; obtain ⟨rfl, rfl⟩ := h; simp
      · rintro ⟨_, h⟩; simp at h; obtain ⟨rfl, rfl⟩ := h; simp

/-- C24: the directory holds for each identifier the fields of the last line of the directory section that starts with
    it, and nothing else. -/
theorem C24_directory (flt : Str → Option F) (fs : FS) (fpath : Str) (xs : XSDir F) (pre sec : List Str) (dl : Str)
    (hok : (readXsdir flt fpath fs).1 = .ok xs)
    (hlines : (getLines fpath fs).1 = .ok (pre ++ dl :: sec))
    (hdl : p!"directory" <+: strip dl) (hpre : ∀ l ∈ pre, ¬ p!"directory" <+: strip l) :
    (∀ k v, xs.directory.get k = some v ↔
      ∃ a l b, sec = a ++ l :: b ∧ DirEntry l k v ∧ ∀ l' ∈ b, ∀ v', ¬ DirEntry l' k v') ∧
    (∀ k, k ∈ xs.directory.keys ↔ ∃ l ∈ sec, ∃ v, DirEntry l k v) ∧ xs.directory.keys.Nodup := by
  obtain ⟨lines, hl, _, _, hd, _, _⟩ := readXsdir_ok hok
  rw [hlines] at hl
  simp at hl
  subst hl
  have hdir : xs.directory = (sec.filterMap dirEntry).foldl
      (fun (d : Dict Str (List Str)) e => d.set e.1 e.2) ([] : Dict Str (List Str)) := by
    rw [hd, processDirectory, dirLoop_false _ _ _ (fun l hl => by
      rw [← Bool.not_eq_true, startsWith_iff]; exact hpre l hl), dirLoop, if_pos (startsWith_iff.2 hdl), dirLoop_true]
  rw [hdir]
  refine ⟨?_, ?_, Dict.nodup_keys_foldl_set _ _ (by simp [Dict.keys])⟩
  · intro k v
    rw [Dict.get_foldl_filterMap]
    simp only [dirEntry_iff, ne_eq]
  · intro k
    rw [Dict.mem_keys_foldl_filterMap]
    simp only [dirEntry_iff]

/-- C24: without a directory line the directory is empty. -/
theorem C24_no_directory (flt : Str → Option F) (fs : FS) (fpath : Str) (xs : XSDir F) (lines : List Str)
    (hok : (readXsdir flt fpath fs).1 = .ok xs) (hlines : (getLines fpath fs).1 = .ok lines)
    (hno : ∀ l ∈ lines, ¬ p!"directory" <+: strip l) : xs.directory = [] := by
  obtain ⟨lines', hl, _, _, hd, _, _⟩ := readXsdir_ok hok
  rw [hlines] at hl
  simp at hl
  subst hl
  have := dirLoop_false [] lines [] (fun l hl => by rw [← Bool.not_eq_true, startsWith_iff]; exact hno l hl)
  rw [hd, processDirectory, ← List.append_nil lines, this]
  rfl

/-- An xsdir file for the examples. -/
def exXsdir : Str := p!"datapath = /data\natomic weight ratios\n 1001 1001 12 x\ndirectory\n 1001.80c 0.9 a\n" ++
  p!" lonely\n 8016.80c 15 b\n 1001.80c 0.8 c d\n"

example : ((readXsdir pyNat p!"f" (exFS exXsdir)).1.map (fun x => (x.datapath, x.awr, x.directory))) =
    .ok (some p!"/data", [(p!"1001", 12)],
      [(p!"1001.80c", [p!"0.8", p!"c", p!"d"]), (p!"8016.80c", [p!"15", p!"b"])]) := by rfl

/-- A line of the atomic weight section with key `k` and third field `v`. -/
def AwrEntry (l k v : Str) : Prop := ¬ p!"atomic" <+: strip l ∧ ∃ w0 rest, Spec.IsWords l (w0 :: k :: v :: rest)

private theorem awrEntry_iff (l k v : Str) : awrEntry l = some (k, v) ↔ AwrEntry l k v := by
  unfold awrEntry AwrEntry
  simp only [isWords_iff]
  rw [← startsWith_iff]
  by_cases h : startsWith (strip l) p!"atomic" = true
  · simp [h]
  · rw [if_neg h, and_iff_right h]
    rcases hw : splitWs l with _ | ⟨k', _ | ⟨v', _ | ⟨w', ws⟩⟩⟩ <;> simp

/-- C25: the atomic weight table, or ValueError if a third field in the section is not a number. `sec` are the lines
    between the first `atomic` line and the next `directory` line (or the end). -/
theorem C25_awr (flt : Str → Option F) (pre sec tail : List Str) (al : Str)
    (hal : p!"atomic" <+: strip al) (hpre : ∀ l ∈ pre, ¬ p!"atomic" <+: strip l)
    (hsec : ∀ l ∈ sec, ¬ p!"directory" <+: strip l)
    (htail : tail = [] ∨ ∃ dl rest, tail = dl :: rest ∧ p!"directory" <+: strip dl) :
    ((∃ l ∈ sec, ∃ k v, AwrEntry l k v ∧ flt v = none) →
      processAwr flt (pre ++ al :: (sec ++ tail)) = .error .ValueError) ∧
    ((¬ ∃ l ∈ sec, ∃ k v, AwrEntry l k v ∧ flt v = none) →
      ∃ d, processAwr flt (pre ++ al :: (sec ++ tail)) = .ok d ∧ d.keys.Nodup ∧
        (∀ k, k ∈ d.keys ↔ ∃ l ∈ sec, ∃ v, AwrEntry l k v) ∧
        ∀ k x, d.get k = some x ↔ ∃ a l b v, sec = a ++ l :: b ∧ AwrEntry l k v ∧ flt v = some x ∧
          ∀ l' ∈ b, ∀ v', ¬ AwrEntry l' k v') := by
  have hloop := awrLoop_true flt tail (by
      rcases htail with h | ⟨dl, rest, h1, h2⟩
      · exact Or.inl h
      · exact Or.inr ⟨dl, rest, h1, startsWith_iff.2 h2⟩) sec [] (fun l hl => by
      rw [← Bool.not_eq_true, startsWith_iff]; exact hsec l hl)
  have hproc : processAwr flt (pre ++ al :: (sec ++ tail)) = awrLoop flt true [] (sec ++ tail) := by
    rw [processAwr, awrLoop_false _ _ _ _ (fun l hl => by
      rw [← Bool.not_eq_true, startsWith_iff]; exact hpre l hl), awrLoop]
    simp only [startsWith_iff.2 hal, if_true]
  have hex : (∃ l ∈ sec, ∃ k v, awrEntry l = some (k, v) ∧ flt v = none) ↔
      ∃ l ∈ sec, ∃ k v, AwrEntry l k v ∧ flt v = none := by simp only [awrEntry_iff]
  rw [hproc, hloop, ← hex]
  constructor
  · intro h; rw [if_pos h]
  · intro h
    rw [if_neg h]
    rw [hex] at h
    refine ⟨_, rfl, Dict.nodup_keys_foldl_set _ _ (by simp [Dict.keys]), ?_, ?_⟩
    · intro k
      rw [Dict.mem_keys_foldl_filterMap]
      constructor
      · rintro ⟨l, hl, x, hx⟩
        rw [Option.bind_eq_some_iff] at hx
        obtain ⟨⟨k', v⟩, h1, h2⟩ := hx
        simp at h2
        obtain ⟨x, _, rfl, _⟩ := h2
        exact ⟨l, hl, v, (awrEntry_iff _ _ _).1 h1⟩
      · rintro ⟨l, hl, v, hv⟩
        cases hf : flt v with
        | none => exact absurd ⟨l, hl, k, v, hv, hf⟩ h
        | some x => exact ⟨l, hl, x, by rw [(awrEntry_iff _ _ _).2 hv]; simp [hf]⟩
    · intro k x
      rw [Dict.get_foldl_filterMap]
      constructor
      · rintro ⟨a, l, b, hs, hg, hn⟩
        rw [Option.bind_eq_some_iff] at hg
        obtain ⟨⟨k', v⟩, h1, h2⟩ := hg
        simp at h2
        obtain ⟨hf', rfl⟩ := h2
        refine ⟨a, l, b, v, hs, (awrEntry_iff _ _ _).1 h1, hf', ?_⟩
        intro l' hl' v' hv'
        cases hf : flt v' with
        | none => exact h ⟨l', by rw [hs]; simp [hl'], _, v', hv', hf⟩
        | some x'' => exact hn l' hl' x'' (by rw [(awrEntry_iff _ _ _).2 hv']; simp [hf])
      · rintro ⟨a, l, b, v, hs, hv, hf, hn⟩
        refine ⟨a, l, b, hs, by rw [(awrEntry_iff _ _ _).2 hv]; simp [hf], ?_⟩
        intro l' hl' x' hx'
        rw [Option.bind_eq_some_iff] at hx'
        obtain ⟨⟨k', v'⟩, h1, h2⟩ := hx'
        simp at h2
        obtain ⟨_, _, rfl, _⟩ := h2
        exact hn l' hl' v' ((awrEntry_iff _ _ _).1 h1)

/-- C25: without an `atomic` line the table is empty; and `read_xsdir` returns the table of its lines. -/
theorem C25_read (flt : Str → Option F) (fs : FS) (fpath : Str) (lines : List Str)
    (hlines : (getLines fpath fs).1 = .ok lines) :
    ((∀ l ∈ lines, ¬ p!"atomic" <+: strip l) → processAwr flt lines = .ok []) ∧
    (∀ xs, (readXsdir flt fpath fs).1 = .ok xs → processAwr flt lines = .ok xs.awr) := by
  constructor
  · intro hno
    have := awrLoop_false flt [] lines [] (fun l hl => by
      rw [← Bool.not_eq_true, startsWith_iff]; exact hno l hl)
    rw [processAwr, ← List.append_nil lines, this]
    rfl
  · intro xs hok
    obtain ⟨lines', hl, _, ha, _, _, _⟩ := readXsdir_ok hok
    rw [hlines] at hl
    simp at hl
    subst hl
    exact ha

example : processAwr pyNat [p!"x", p!"atomic weight", p!" 1001 1001 1", p!"short", p!" 1001 1001 2", p!"directory",
    p!"a b c"] = .ok [(p!"1001", 2)] := by decide
example : processAwr pyNat [p!"atomic weight", p!" 1001 1001 x"] = .error .ValueError := by decide

/-- The line starts, after blanks and in any letter case, with `datapath`. -/
def IsDatapath (l : Str) : Prop := p!"datapath" <+: strip (lower l)

/-- C26 (part that holds): None exactly when no line starts with datapath; otherwise the lower-cased text between the
    first and the second `=` of the first such line, blanks removed; IndexError without `=`. Missing: upper case letters
    are lost and the path is cut at a second `=` (`C26_violated`). -/
theorem C26_datapath_partial (lines : List Str) :
    (processDatapath lines = .ok none ↔ ∀ l ∈ lines, ¬ IsDatapath l) ∧
    ∀ pre l post, lines = pre ++ l :: post → (∀ l' ∈ pre, ¬ IsDatapath l') → IsDatapath l →
      (∀ a b, lower l = a ++ '=' :: b → '=' ∉ a →
        processDatapath lines = .ok (some (strip (b.takeWhile (· ≠ '='))))) ∧
      ('=' ∉ l → processDatapath lines = .error .IndexError) := by
  have hstep : ∀ pre rest, (∀ l' ∈ pre, ¬ IsDatapath l') → processDatapath (pre ++ rest) = processDatapath rest := by
    intro pre rest h
    induction pre with
    | nil => rfl
    | cons x xs ih =>
      rw [List.cons_append, processDatapath, if_neg (by rw [startsWith_iff]; exact h x (by simp))]
      exact ih (fun l' h' => h l' (by simp [h']))
  have hhit : ∀ l rest, IsDatapath l → processDatapath (l :: rest) = match (splitOn '=' (lower l))[1]? with
      | none => .error .IndexError
      | some v => .ok (some (strip v)) := by
    intro l rest h
    rw [processDatapath, if_pos (startsWith_iff.2 h)]
    rfl
  constructor
  · constructor
    · intro h
      by_contra hn
      have : ∃ pre l post, lines = pre ++ l :: post ∧ (∀ l' ∈ pre, ¬ IsDatapath l') ∧ IsDatapath l := by
        classical
        rcases Printlib.split_first (fun l => decide (IsDatapath l)) lines with h1 | ⟨a, x, b, h1, h2, h3⟩
        · exact absurd (fun l hl => by simpa using h1 l hl) hn
        · exact ⟨a, x, b, h1, fun l hl => by simpa using h3 l hl, by simpa using h2⟩
      obtain ⟨pre, l, post, rfl, h1, h2⟩ := this
      rw [hstep _ _ h1, hhit _ _ h2] at h
      split at h <;> simp at h
    · intro h
      have := hstep lines [] h
      rw [List.append_nil] at this
      rw [this]; rfl
  · rintro pre l post rfl hpre hl
    rw [hstep _ _ hpre, hhit _ _ hl]
    constructor
    · intro a b hab ha
      have h1 : splitOn '=' (lower l) = a :: splitOn '=' b := by
        rw [hab, splitOn, splitP_append_sep (by simp), splitP_of_not_mem (s := a)]
        · rfl
        · intro c hc
          simp; rintro rfl; exact ha hc
      have h2 : ∀ b : Str, (splitOn '=' b).head? = some (b.takeWhile (· ≠ '=')) := by
        intro b
        induction b with
        | nil => rfl
        | cons c cs ih =>
          unfold splitOn at ih ⊢
          by_cases hc : c = '='
          · subst hc; rfl
          · rw [splitP_cons_neg (p := (· == '=')) (by simpa using hc)]
            rw [List.head?_eq_getElem?] at ih
            cases hs : splitP (· == '=') cs with
            | nil => exact absurd hs (splitP_ne_nil _ _)
            | cons x xs => rw [hs] at ih; simp at ih; simp [hc, ih]
      rw [h1]
      have h3 := h2 b
      cases hs : splitOn '=' b with
      | nil => rw [hs] at h3; simp at h3
      | cons x xs =>
        rw [hs] at h3
        simp at h3
        simp [h3]
    · intro hno
      have : '=' ∉ lower l := fun h => hno (mem_of_mem_lower (by decide) h)
      rw [splitOn, splitP_of_not_mem (s := lower l) (by
        intro c hc; simp; rintro rfl; exact this hc)]
      rfl

/-- C26 is violated: the path is returned in lower case, and cut at a second `=`. -/
theorem C26_violated :
    processDatapath [p!"datapath = /Data/XS"] = .ok (some p!"/data/xs") ∧
    processDatapath [p!"datapath = /a=b"] = .ok (some p!"/a") ∧
    p!"/Data/XS" ≠ p!"/data/xs" := by decide

example : IsDatapath p!" DATAPATH=/x" := by unfold IsDatapath; decide

end

/-! ### C27 -/

section
open Ptrac
variable {F : Type}

/-- The three layouts of the numbers of one event (`f..` are numbers that are not stored). -/
inductive Layout : Event F → List F → Prop
  | n16 (e : Event F) (f1 f4 f5 f6 : F) : Layout e
      [e.type, f1, e.cell, e.par, f4, f5, f6, e.x, e.y, e.z, e.u, e.v, e.w, e.energy, e.wgt, e.time]
  | n15 (e : Event F) (f1 f4 f5 : F) : Layout e
      [e.type, f1, e.cell, e.par, f4, f5, e.x, e.y, e.z, e.u, e.v, e.w, e.energy, e.wgt, e.time]
  | n17 (e : Event F) (f1 f2 f5 f6 f7 : F) : Layout e
      [e.type, f1, f2, e.cell, e.par, f5, f6, f7, e.x, e.y, e.z, e.u, e.v, e.w, e.energy, e.wgt, e.time]

/-- Two lines per event, the second with nine entries; any spacing. -/
inductive EventLines (flt : Str → Option F) : List (Event F) → List Str → Prop
  | nil : EventLines flt [] []
  | cons {e es l1 l2 ls a b vals} : Spec.IsWords l1 a → Spec.IsWords l2 b → b.length = 9 →
      (a ++ b).mapM flt = some vals → Layout e vals → EventLines flt es ls →
      EventLines flt (e :: es) (l1 :: l2 :: ls)

/-- A history line (two or three entries, the first being the history number) followed by its events. -/
inductive TrackLines (flt : Str → Option F) : List (History F) → List Str → Prop
  | nil : TrackLines flt [] []
  | cons {h hs l n ws els ls} : Spec.IsWords l (n :: ws) → (ws.length = 1 ∨ ws.length = 2) →
      pyInt n = some h.nps → EventLines flt h.events els → TrackLines flt hs ls →
      TrackLines flt (h :: hs) (l :: (els ++ ls))

private theorem split_words {l : Str} {ws : List Str} (h : Spec.IsWords l ws) (hne : ws ≠ []) :
    stringCleanAndSplit l = ws := by
  obtain ⟨ws', h1, h2, h3⟩ := C04_clean_and_split l
  rw [h3, ← h2 ws h, if_neg hne]

private theorem processEvent_layout {flt : Str → Option F} {e : Event F} {toks : List Str} {vals : List F}
    (h : toks.mapM flt = some vals) (hl : Layout e vals) : processEvent flt toks = .ok e := by
  unfold processEvent
  rw [h]
  cases hl <;> rfl

private theorem mapM_length {flt : Str → Option F} : ∀ {toks : List Str} {vals : List F},
    toks.mapM flt = some vals → toks.length = vals.length
  | [], vals, h => by simp at h; simp [h]
  | t :: ts, vals, h => by
    rw [List.mapM_cons] at h
    cases h1 : flt t with
    | none => rw [h1] at h; simp at h
    | some x =>
      cases h2 : ts.mapM flt with
      | none => rw [h1, h2] at h; simp at h
      | some xs =>
        rw [h1, h2] at h
        simp at h
        rw [← h]
        simp [mapM_length h2]

private theorem events_loop {flt : Str → Option F} {es : List (Event F)} {els : List Str}
    (h : EventLines flt es els) : ∀ (hs : List (Option (History F))) (cur : History F) (temp : Option (List Str))
      (rest : List Str), ∃ temp', tracksLoop flt hs (some cur) temp (els ++ rest) =
        tracksLoop flt hs (some { cur with events := cur.events ++ es }) temp' rest := by
  induction h with
  | nil => intro hs cur temp rest; exact ⟨temp, by simp⟩
  | @cons e es l1 l2 ls a b vals h1 h2 h3 h4 h5 h6 ih =>
    intro hs cur temp rest
    have hlen := mapM_length h4
    rw [List.length_append, h3] at hlen
    have ha : a.length = 7 ∨ a.length = 6 ∨ a.length = 8 := by
      cases h5 <;> simp at hlen <;> omega
    have hane : a ≠ [] := by rintro rfl; simp at ha
    have hbne : b ≠ [] := by rintro rfl; simp at h3
    have e1 := split_words h1 hane
    have e2 := split_words h2 hbne
    rw [List.cons_append, List.cons_append, tracksLoop_other (by rw [e1]; omega) (by rw [e1]; omega), e1,
      tracksLoop_nine (by rw [e2]; exact h3) (by rw [e2]; exact processEvent_layout h4 h5), e2]
    obtain ⟨temp', ht⟩ := ih hs { cur with events := cur.events ++ [e] } (some (a ++ b)) rest
    exact ⟨temp', by rw [ht]; simp⟩

theorem tracks_loop {flt : Str → Option F} {hists : List (History F)} {lines : List Str}
    (h : TrackLines flt hists lines) : ∀ (hs : List (Option (History F))) (cur : Option (History F))
      (temp : Option (List Str)), hists ≠ [] →
      tracksLoop flt hs cur temp lines = .ok (hs ++ (if cur.isSome then [cur] else []) ++ hists.map some) := by
  induction h with
  | nil => intro hs cur temp h; exact absurd rfl h
  | @cons h hists l n ws els ls h1 h2 h3 h4 h5 ih =>
    intro hs cur temp _
    have hlen : (n :: ws).length = 2 ∨ (n :: ws).length = 3 := by simp; omega
    have e1 := split_words h1 (by simp)
    rw [tracksLoop_header (by rw [e1]; exact hlen) (by rw [e1]; exact h3)]
    obtain ⟨temp', ht⟩ := events_loop h4 (if cur.isSome then hs ++ [cur] else hs) ⟨h.nps, []⟩ temp ls
    rw [ht]
    simp only [List.nil_append]
    cases hists with
    | nil =>
      cases h5
      rw [tracksLoop_nil]
      split <;> simp
    | cons h' hists' =>
      rw [ih _ _ _ (by simp)]
      split <;> simp

/-- C27 (part that holds): decoding a printed track section of at least one history gives back the histories.
    Missing: for no history at all the result is `[None]` (`C27_violated`). -/
theorem C27_decode_partial (flt : Str → Option F) (hists : List (History F)) (lines : List Str)
    (h : TrackLines flt hists lines) (hne : hists ≠ []) :
    processTracks flt lines = .ok (hists.map some) := by
  rw [processTracks, tracks_loop h _ _ _ hne]
  simp

/-- C27 is violated for the empty track section: one entry, `None`, is returned instead of no history. -/
theorem C27_violated (flt : Str → Option F) :
    TrackLines flt [] [] ∧ processTracks flt [] = .ok [none] := ⟨.nil, rfl⟩

example : TrackLines pyNat [⟨7, [⟨8, 9, 10, 1, 11, 12, 13, 15, 14, 4, 3, 16⟩]⟩]
    [p!"  7  1000", p!" 1 2 3 4 5 6 7", p!" 8 9 10  11 12 13 14 15 16"] := by
  refine .cons (n := p!"7") (ws := [p!"1000"]) (els := [_, _]) (ls := []) ?_ (Or.inl rfl) (by decide) ?_ .nil
  · rw [isWords_iff]; decide
  · refine .cons (a := [p!"1", p!"2", p!"3", p!"4", p!"5", p!"6", p!"7"])
      (b := [p!"8", p!"9", p!"10", p!"11", p!"12", p!"13", p!"14", p!"15", p!"16"]) ?_ ?_ rfl ?_
      (.n16 _ 2 5 6 7) .nil
    · rw [isWords_iff]; decide
    · rw [isWords_iff]; decide
    · decide

/-! ### C28 -/

variable [DecidableEq F]

/-- C28 (part that holds): between events, `==` is true exactly when all twelve fields agree (hence an equivalence).
    Missing: against anything that is not an event the result is truthy (`C28_violated`). -/
theorem C28_equality_partial (a b : Event F) :
    ((eventEq a (.event b)).truthy = true ↔
      a.x = b.x ∧ a.y = b.y ∧ a.z = b.z ∧ a.type = b.type ∧ a.u = b.u ∧ a.v = b.v ∧ a.w = b.w ∧ a.wgt = b.wgt ∧
      a.energy = b.energy ∧ a.par = b.par ∧ a.cell = b.cell ∧ a.time = b.time) ∧
    ((eventEq a (.event b)).truthy = true ↔ a = b) := by
  have h1 : (eventEq a (.event b)).truthy = true ↔
      a.x = b.x ∧ a.y = b.y ∧ a.z = b.z ∧ a.type = b.type ∧ a.u = b.u ∧ a.v = b.v ∧ a.w = b.w ∧ a.wgt = b.wgt ∧
      a.energy = b.energy ∧ a.par = b.par ∧ a.cell = b.cell ∧ a.time = b.time := by
    have step : ∀ (x y : F) (r : EqResult),
        (if x ≠ y then EqResult.bool false else r).truthy = true ↔ x = y ∧ r.truthy = true := by
      intro x y r
      by_cases h : x = y <;> simp [h, EqResult.truthy]
    change (if a.x ≠ b.x then EqResult.bool false else _).truthy = true ↔ _
    rw [step, step, step, step, step, step, step, step, step, step, step, step]
    simp only [EqResult.truthy, and_true]
    constructor
    · rintro ⟨h1, h2, h3, h4, h5, h6, h7, h8, h9, h10, h11, h12⟩
      exact ⟨h1, h2, h3, h4, h5, h6, h7, h8, h12, h9, h10, h11⟩
    · rintro ⟨h1, h2, h3, h4, h5, h6, h7, h8, h9, h10, h11, h12⟩
      exact ⟨h1, h2, h3, h4, h5, h6, h7, h8, h10, h11, h12, h9⟩
  refine ⟨h1, h1.trans ?_⟩
  constructor
  · rintro ⟨h1, h2, h3, h4, h5, h6, h7, h8, h9, h10, h11, h12⟩
    cases a; cases b; simp_all
  · rintro rfl; simp

/-- C28 is violated: comparing any event with something that is not an event is truthy. -/
theorem C28_violated (a : Event F) : (eventEq a .other).truthy = true := rfl

omit [DecidableEq F] in
/-- C29: total number of events over number of histories; ZeroDivisionError exactly for the empty list. -/
theorem C29_mean (hists : List (History F)) :
    (∀ e, meanNumEvents hists = .error e ↔ hists = [] ∧ e = .ZeroDivisionError) ∧
    (∀ m, meanNumEvents hists = .ok m →
      m * hists.length = ((hists.map (fun h => h.events.length)).sum : ℕ) ∧
      ∀ lo hi : Nat, (∀ h ∈ hists, lo ≤ h.events.length ∧ h.events.length ≤ hi) → (lo : ℚ) ≤ m ∧ m ≤ hi) := by
  have hsum : ∀ (l : List (History F)) (n : Nat), l.foldl (fun n h => n + h.events.length) n =
      n + (l.map (fun h => h.events.length)).sum := by
    intro l
    induction l with
    | nil => intro n; simp
    | cons x xs ih => intro n; rw [List.foldl_cons, ih]; simp; omega
  unfold meanNumEvents
  constructor
  · intro e
    by_cases h : hists.length = 0
    · simp only [h, if_true]
      rw [List.length_eq_zero_iff] at h
      simp [h, eq_comm]
    · simp only [h, if_false]
      constructor
      · intro h'; simp at h'
      · rintro ⟨rfl, _⟩; simp at h
  · intro m hm
    by_cases h : hists.length = 0
    · simp [h] at hm
    · simp only [h, if_false, Except.ok.injEq] at hm
      rw [hsum, Nat.zero_add] at hm
      have hpos : (0 : ℚ) < hists.length := by exact_mod_cast Nat.pos_of_ne_zero h
      refine ⟨by rw [← hm]; field_simp, ?_⟩
      intro lo hi hb
      have hlo : hists.length * lo ≤ (hists.map (fun h => h.events.length)).sum ∧
          (hists.map (fun h => h.events.length)).sum ≤ hists.length * hi := by
        clear hm hpos h
        induction hists with
        | nil => simp
        | cons x xs ih =>
          have := ih (fun h hh => hb h (by simp [hh]))
          have hx := hb x (by simp)
          simp only [List.length_cons, List.map_cons, List.sum_cons, Nat.add_mul, Nat.one_mul]
          omega
      rw [← hm]
      constructor
      · rw [le_div_iff₀ hpos]
        have := hlo.1
        rw [mul_comm]
        exact_mod_cast this
      · rw [div_le_iff₀ hpos]
        have := hlo.2
        rw [mul_comm]
        exact_mod_cast this

example : meanNumEvents [(⟨1, [⟨8, 9, 10, 1, 11, 12, 13, 15, 14, 4, 3, 16⟩]⟩ : History Nat), ⟨2, []⟩] = .ok (1 / 2) := by
  rw [meanNumEvents]; norm_num

omit [DecidableEq F] in
/-- C30: the header is the first nine lines, the rest are the tracks, and exactly the rest is processed. -/
theorem C30_header (lines : List Str) (flt : Str → Option F) (fs : FS) (path : Str)
    (hl : (getLines path fs).1 = .ok lines) :
    (removeHeader lines).1 ++ (removeHeader lines).2 = lines ∧
    (removeHeader lines).1.length = min 9 lines.length ∧
    ∀ head tracks, lines = head ++ tracks → head.length = 9 →
      readPtrac flt path fs = (processTracks flt tracks, fs) := by
  refine ⟨by simp [removeHeader], by simp [removeHeader], ?_⟩
  rintro head tracks rfl hh
  unfold readPtrac
  have hfs := getLines_snd path fs
  rw [PyM.bind_ok (a := head ++ tracks) (fs' := fs) (Prod.ext hl hfs)]
  simp only [removeHeader, PyM.lift_run]
  rw [← hh, List.drop_left]

example : (getLines p!"f" (exFS p!"1\n2\n3\n4\n5\n6\n7\n8\n9\nx y\n")).1 =
    .ok ([p!"1", p!"2", p!"3", p!"4", p!"5", p!"6", p!"7", p!"8", p!"9"] ++ [p!"x y"]) := by decide

end

end Props
