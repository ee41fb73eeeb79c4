/- Properties C64 and C65: reading mesh tally files. The form of a file (`Sec`, `Sec.WF`, `HeaderLine`) and the mesh expected
   from a section (`RawOf`) are defined at the top of Verif/Proofs/MeshtalReader.lean. -/
import Verif.Proofs.MeshtalReader
import Verif.Proofs.NeutUtilities

set_option linter.unusedSectionVars false

namespace Props
open Py Meshtal
variable {K : Type} [Field K] [LinearOrder K] [IsStrictOrderedRing K] [FloorRing K]

/-- Number in word `i` of a row. -/
def cellAt (numeric : Str → Option (Option K)) (ws : List Str) (i : Nat) : Option K := ((ws[i]?).bind numeric).getD none

/-- The row of the table for a data line. -/
def rowOf (numeric : Str → Option (Option K)) (kind : CType) (ws : List Str) : MRow K :=
  let c := cellAt numeric ws
  match kind with
  | .c5 => ⟨none, c 0, c 1, c 2, c 3, c 4⟩
  | _ => ⟨c 0, c 1, c 2, c 3, c 4, c 5⟩

/-- Data lines that enter the table: in a time mesh the totals and the rows of time 0 do not. -/
def kept (kind : CType) (l : Str) : Bool :=
  decide (¬ (kind = .t6 ∧ ((splitWs l).head? = some p!"Total" ∨ (splitWs l).head? = some p!"0.000E+00")))

/-- A data line has the right number of words and they are numbers (except for the first word of a dropped row). -/
def DataLine (numeric : Str → Option (Option K)) (kind : CType) (l : Str) : Prop :=
  (splitWs l).length = (if kind = .c5 then 5 else 6) ∧ (∀ w ∈ (splitWs l).drop 1, numeric w ≠ none) ∧
    (kept kind l = true → ∀ w ∈ splitWs l, numeric w ≠ none)

/-- The lines after the titles are data lines and blank lines, not all of them blank (if there are any). -/
def DataWF (numeric : Str → Option (Option K)) (s : Sec) : Prop :=
  (s.body ≠ [] → ∃ l ∈ s.body, splitWs l ≠ []) ∧ ∀ l ∈ s.body, splitWs l = [] ∨ DataLine numeric s.kind l

/-- The mesh expected for a section: header data as in `RawOf`, and the table with the position of the data line as label. -/
def MeshOf (flt : Str → Option K) (numeric : Str → Option (Option K)) (s : Sec) (m : Mesh K (Frame K)) : Prop :=
  RawOf flt (some s.kind) s (m.withData (s.body.map splitWs)) ∧
  m.data = ⟨s.kind, (s.body.zipIdx.filter (fun e => kept s.kind e.1)).map
    (fun e => (e.2, rowOf numeric s.kind (splitWs e.1)))⟩

private theorem toRow_ok (numeric : Str → Option (Option K)) (s : Sec) (h : DataWF numeric s) (l : Str) (hl : l ∈ s.body) :
    toRow numeric s.kind (splitWs l) =
      .ok (if kept s.kind l then some (rowOf numeric s.kind (splitWs l)) else none) := by
  rcases h.2 l hl with h0 | ⟨h1, h2, h3⟩
  · unfold kept
    rw [h0]
    cases s.kind <;> simp [toRow, toNumeric, rowOf, cellAt, bind, Except.bind, pure, Except.pure]
  unfold kept at h3 ⊢
  generalize splitWs l = ws at *
  cases hk : s.kind with
  | c5 =>
    rw [hk, if_pos rfl] at h1
    simp only [hk, reduceCtorEq, false_and, not_false_eq_true, decide_true, true_implies, if_true] at h3 ⊢
    rcases ws with _ | ⟨w0, _ | ⟨w1, _ | ⟨w2, _ | ⟨w3, _ | ⟨w4, _ | ⟨_, _⟩⟩⟩⟩⟩⟩ <;> simp at h1
    simp only [List.mem_cons, List.not_mem_nil, or_false, forall_eq_or_imp, forall_eq] at h3
    obtain ⟨n0, n1, n2, n3, n4⟩ := h3
    obtain ⟨v0, e0⟩ := Option.ne_none_iff_exists'.1 n0
    obtain ⟨v1, e1⟩ := Option.ne_none_iff_exists'.1 n1
    obtain ⟨v2, e2⟩ := Option.ne_none_iff_exists'.1 n2
    obtain ⟨v3, e3⟩ := Option.ne_none_iff_exists'.1 n3
    obtain ⟨v4, e4⟩ := Option.ne_none_iff_exists'.1 n4
    simp [toRow, toNumeric, e0, e1, e2, e3, e4, orErr, rowOf, cellAt, bind, Except.bind, pure, Except.pure]
  | e6 =>
    rw [hk, if_neg (by simp)] at h1
    simp only [hk, reduceCtorEq, false_and, not_false_eq_true, decide_true, true_implies, if_true] at h3 ⊢
    rcases ws with _ | ⟨w0, _ | ⟨w1, _ | ⟨w2, _ | ⟨w3, _ | ⟨w4, _ | ⟨w5, _ | ⟨_, _⟩⟩⟩⟩⟩⟩⟩ <;> simp at h1
    simp only [List.mem_cons, List.not_mem_nil, or_false, forall_eq_or_imp, forall_eq] at h3
    obtain ⟨n0, n1, n2, n3, n4, n5⟩ := h3
    obtain ⟨v0, e0⟩ := Option.ne_none_iff_exists'.1 n0
    obtain ⟨v1, e1⟩ := Option.ne_none_iff_exists'.1 n1
    obtain ⟨v2, e2⟩ := Option.ne_none_iff_exists'.1 n2
    obtain ⟨v3, e3⟩ := Option.ne_none_iff_exists'.1 n3
    obtain ⟨v4, e4⟩ := Option.ne_none_iff_exists'.1 n4
    obtain ⟨v5, e5⟩ := Option.ne_none_iff_exists'.1 n5
    simp [toRow, toNumeric, e0, e1, e2, e3, e4, e5, orErr, rowOf, cellAt, bind, Except.bind, pure, Except.pure]
  | t6 =>
    rw [hk, if_neg (by simp)] at h1
    simp only [hk, true_and, decide_eq_true_eq] at h3 ⊢
    rcases ws with _ | ⟨w0, _ | ⟨w1, _ | ⟨w2, _ | ⟨w3, _ | ⟨w4, _ | ⟨w5, _ | ⟨_, _⟩⟩⟩⟩⟩⟩⟩ <;> simp at h1
    simp only [List.drop_succ_cons, List.drop_zero, List.mem_cons, List.not_mem_nil, or_false, forall_eq_or_imp,
      forall_eq] at h2 h3
    obtain ⟨n1, n2, n3, n4, n5⟩ := h2
    obtain ⟨v1, e1⟩ := Option.ne_none_iff_exists'.1 n1
    obtain ⟨v2, e2⟩ := Option.ne_none_iff_exists'.1 n2
    obtain ⟨v3, e3⟩ := Option.ne_none_iff_exists'.1 n3
    obtain ⟨v4, e4⟩ := Option.ne_none_iff_exists'.1 n4
    obtain ⟨v5, e5⟩ := Option.ne_none_iff_exists'.1 n5
    simp only [List.head?_cons] at h3 ⊢
    by_cases hd : some w0 = some p!"Total" ∨ some w0 = some p!"0.000E+00"
    · simp only [toRow, toNumeric, e1, e2, e3, e4, e5, orErr, bind, Except.bind, pure, Except.pure,
        reduceCtorEq, if_false, List.getElem?_cons_zero, List.getElem?_cons_succ, true_and,
        Nat.reduceAdd, not_true_eq_false, hd, if_true]
    · obtain ⟨v0, e0⟩ := Option.ne_none_iff_exists'.1 (h3 hd).1
      simp only [toRow, toNumeric, e0, e1, e2, e3, e4, e5, orErr, bind, Except.bind, pure, Except.pure, rowOf, cellAt,
        reduceCtorEq, if_false, List.getElem?_cons_zero, List.getElem?_cons_succ, true_and,
        Option.bind_some, Option.getD_some, Nat.reduceAdd, not_false_eq_true, if_true, hd]

private theorem convert_ok (flt : Str → Option K) (numeric : Str → Option (Option K)) (s : Sec) (h : DataWF numeric s)
    (m : RawMesh K) (hm : RawOf flt (some s.kind) s m) :
    ∃ m', (convertToDf numeric m).map m.withData = .ok m' ∧ MeshOf flt numeric s m' := by
  have hdata : m.data = s.body.map splitWs := hm.2.2.2.2.2.2.2.2.2.2.1
  have htype : m.ctype = some s.kind := hm.2.2.2.2.2.2.2.2.2.2.2
  have hlen : ¬ (m.data ≠ [] ∧ (m.data.map List.length).foldl max 0 ≠ s.kind.ncols) := by
    rw [hdata]
    rintro ⟨hne, hbad⟩
    apply hbad
    have hn : s.kind.ncols = if s.kind = .c5 then 5 else 6 := by cases s.kind <;> rfl
    have hall : ∀ l ∈ s.body, splitWs l = [] ∨ (splitWs l).length = s.kind.ncols := fun l hl =>
      (h.2 l hl).imp_right (fun h' => by rw [hn]; exact h'.1)
    have gen : ∀ (b : List Str) (a : Nat), (∀ l ∈ b, splitWs l = [] ∨ (splitWs l).length = s.kind.ncols) → a ≤ s.kind.ncols →
        ((b.map splitWs).map List.length).foldl max a = if ∀ l ∈ b, splitWs l = [] then a else s.kind.ncols := by
      intro b
      induction b with
      | nil => intro a _ _; simp
      | cons l b ih =>
        intro a hb ha
        have ih' := fun a' ha' => ih a' (fun l' hl' => hb l' (by simp [hl'])) ha'
        rw [List.map_cons, List.map_cons, List.foldl_cons]
        rcases hb l (by simp) with h0 | h0
        · rw [h0, List.length_nil, Nat.max_zero, ih' a ha]
          simp [h0]
        · rw [h0, max_eq_right ha, ih' _ (le_refl _), ite_self, if_neg]
          intro hall
          rw [hall l (by simp)] at h0
          cases hk : s.kind <;> rw [hk] at h0 <;> simp [CType.ncols] at h0
    rw [gen s.body 0 hall (Nat.zero_le _), if_neg]
    intro hb
    obtain ⟨l, hl, hl'⟩ := h.1 (by rintro h0; rw [h0] at hne; exact hne rfl)
    exact hl' (hb l hl)
  have hmap : m.data.mapM (toRow numeric s.kind) =
      .ok (s.body.map (fun l => if kept s.kind l then some (rowOf numeric s.kind (splitWs l)) else none)) := by
    rw [hdata, mapM_except_ok_iff, List.forall₂_map_left_iff, List.forall₂_map_right_iff]
    exact List.forall₂_same.2 (fun l hl => toRow_ok numeric s h l hl)
  refine ⟨m.withData ⟨s.kind, (s.body.zipIdx.filter (fun e => kept s.kind e.1)).map
    (fun e => (e.2, rowOf numeric s.kind (splitWs e.1)))⟩, ?_, ?_, rfl⟩
  · unfold convertToDf
    rw [htype]
    simp only [if_neg hlen, hmap, bind, Except.bind, pure, Except.pure, Except.map]
    congr 3
    rw [List.zipIdx_map, List.filterMap_map, ← filterMap_if]
    apply List.filterMap_congr
    rintro ⟨l, i⟩ _
    simp only [Function.comp_apply, Prod.map]
    split <;> rfl
  · have : (m.withData (⟨s.kind, (s.body.zipIdx.filter (fun e => kept s.kind e.1)).map
        (fun e => (e.2, rowOf numeric s.kind (splitWs e.1)))⟩ : Frame K)).withData (s.body.map splitWs) = m := by
      rw [← hdata]; rfl
    rw [this]
    exact hm

/-- The lines of the file are a preamble without special lines followed by well formed sections. -/
structure FileOf (flt : Str → Option K) (pre : List Str) (secs : List Sec) (text : Str) : Prop where
  lines : keepLines text = pre ++ secs.flatMap Sec.lines
  pre : ∀ l ∈ pre, HeaderLine .plain l
  secs : ∀ s ∈ secs, s.WF ∧ s.Numeric flt

private theorem read_none (flt : Str → Option K) (numeric : Str → Option (Option K)) (pre : List Str) (secs : List Sec) (hne : secs ≠ [])
    (text : Str) (hf : FileOf flt pre secs text) (n : Option Int) (hn : ∀ s ∈ secs.dropLast, some s.num ≠ n) :
    ∃ ms, Raws flt secs ms ∧ readMeshtallyText flt numeric n text =
      match ms.mapM (fun m => (convertToDf numeric m).map m.withData) with
      | .ok ms => .ok (.all ms)
      | .error e => .error e := by
  obtain ⟨before, s, rfl⟩ : ∃ before s, secs = before ++ [s] := ⟨_, _, (List.dropLast_append_getLast hne).symm⟩
  rw [List.dropLast_concat] at hn
  obtain ⟨ms, m, h1, h2, h3⟩ := file_last flt n pre before s [] hf.pre
    (fun s' hs' => ⟨(hf.secs s' (by simp [hs'])).1, (hf.secs s' (by simp [hs'])).2, hn s' hs'⟩)
    (hf.secs s (by simp)).1 (hf.secs s (by simp)).2
  refine ⟨ms ++ [m], h1, ?_⟩
  unfold readMeshtallyText
  rw [hf.lines]
  rw [List.append_nil] at h3
  rw [h3]
  rfl

private theorem raws_types {flt : Str → Option K} {secs : List Sec} {ms : List (RawMesh K)} (h : Raws flt secs ms)
    (hk : ∀ s ∈ secs.tail, s.kind ≠ .e6) : List.Forall₂ (fun s m => RawOf flt (some s.kind) s m) secs ms := by
  cases secs with
  | nil => cases ms <;> exact absurd h (by simp [Raws])
  | cons s0 secs =>
    cases ms with
    | nil => exact absurd h (by simp [Raws])
    | cons m0 ms =>
      obtain ⟨h0, h1⟩ := h
      refine .cons h0 ?_
      simp only [List.tail_cons] at hk
      clear h0
      induction h1 with
      | nil => exact .nil
      | @cons s m secs ms h h' ih =>
        refine .cons ?_ (ih (fun s hs => hk s (by simp [hs])))
        have := hk s (by simp)
        cases hs : s.kind with
        | e6 => exact absurd hs this
        | t6 => rw [hs] at h; exact h
        | c5 => rw [hs] at h; exact h

/-- C64 (part that holds): if no mesh after the first one is of energy type, all meshes are returned in order, each with the
    data of its own section. Missing: files with an energy mesh after the first mesh (`C64_violated`) and energy meshes with
    total rows (`C64_violated_total`). -/
theorem C64_all_partial (flt : Str → Option K) (numeric : Str → Option (Option K)) (pre : List Str) (secs : List Sec)
    (hne : secs ≠ []) (text : Str) (hf : FileOf flt pre secs text) (hd : ∀ s ∈ secs, DataWF numeric s)
    (hk : ∀ s ∈ secs.tail, s.kind ≠ .e6) :
    ∃ ms, readMeshtallyText flt numeric none text = .ok (.all ms) ∧ List.Forall₂ (MeshOf flt numeric) secs ms := by
  obtain ⟨ms, h1, h2⟩ := read_none flt numeric pre secs hne text hf none (by simp)
  have h3 := raws_types h1 hk
  have : ∃ ms', ms.mapM (fun m => (convertToDf numeric m).map m.withData) = .ok ms' ∧
      List.Forall₂ (MeshOf flt numeric) secs ms' := by
    clear h1 h2 hf hk hne
    induction h3 with
    | nil => exact ⟨[], rfl, .nil⟩
    | @cons s m secs ms h h' ih =>
      obtain ⟨m', hm', hmo⟩ := convert_ok flt numeric s (hd s (by simp)) m h
      obtain ⟨ms', hms', hmos⟩ := ih (fun s hs => hd s (by simp [hs]))
      refine ⟨m' :: ms', ?_, .cons hmo hmos⟩
      rw [mapM_except_cons_ok (f := fun m => (convertToDf numeric m).map m.withData) hm', hms']
      rfl
  obtain ⟨ms', h4, h5⟩ := this
  refine ⟨ms', ?_, h5⟩
  rw [h2, h4]

theorem read_error (flt : Str → Option K) (numeric : Str → Option (Option K)) (pre : List Str) (secs : List Sec)
    (hne : secs ≠ []) (text : Str) (hf : FileOf flt pre secs text)
    (hbad : ∀ ms, Raws flt secs ms → ∃ m ∈ ms, ∃ e, convertToDf numeric m = .error e) :
    readMeshtallyText flt numeric none text = .error .ValueError := by
  obtain ⟨ms, h1, h2⟩ := read_none flt numeric pre secs hne text hf none (by simp)
  obtain ⟨m, hm, e, he⟩ := hbad ms h1
  rw [h2, mapM_except_err_of (e := .ValueError)]
  · intro a _ e' he'
    cases hc : convertToDf numeric a with
    | ok f => rw [hc] at he'; simp [Except.map] at he'
    | error e'' =>
      rw [hc] at he'
      simp only [Except.map, Except.error.injEq] at he'
      rw [← he']
      exact convertToDf_err hc
  · exact ⟨m, hm, e, by rw [he]; rfl⟩

/-- C64 is violated: every well formed file with an energy mesh that is not the first one raises ValueError. -/
theorem C64_violated (flt : Str → Option K) (numeric : Str → Option (Option K)) (pre : List Str) (secs : List Sec)
    (text : Str) (hf : FileOf flt pre secs text) (s : Sec) (hs : s ∈ secs.tail) (hk : s.kind = .e6) :
    readMeshtallyText flt numeric none text = .error .ValueError := by
  refine read_error flt numeric pre secs (by rintro rfl; simp at hs) text hf ?_
  intro ms h
  cases secs with
  | nil => simp at hs
  | cons s0 secs =>
    cases ms with
    | nil => exact absurd h (by simp [Raws])
    | cons m0 ms =>
      obtain ⟨_, h1⟩ := h
      simp only [List.tail_cons] at hs
      obtain ⟨i, hi, rfl⟩ := List.mem_iff_getElem.1 hs
      have hi' : i < ms.length := h1.length_eq ▸ hi
      have hr := h1.get hi hi'
      simp only [List.get_eq_getElem, hk, typeAfter] at hr
      refine ⟨ms[i], by simp, .ValueError, ?_⟩
      unfold convertToDf
      rw [hr.2.2.2.2.2.2.2.2.2.2.2]

/-- C64 is violated: an energy mesh with a row whose first word is not a number (MCNP writes `Total` for the sum over the
    energies) raises ValueError. -/
theorem C64_violated_total (flt : Str → Option K) (numeric : Str → Option (Option K)) (pre : List Str) (s0 : Sec)
    (secs : List Sec) (text : Str) (hf : FileOf flt pre (s0 :: secs) text) (hk : s0.kind = .e6) (l w : Str) (ws : List Str)
    (hl : l ∈ s0.body) (hw : splitWs l = w :: ws) (hnum : numeric w = none) :
    readMeshtallyText flt numeric none text = .error .ValueError := by
  refine read_error flt numeric pre (s0 :: secs) (by simp) text hf ?_
  intro ms h
  cases ms with
  | nil => exact absurd h (by simp [Raws])
  | cons m0 ms =>
    obtain ⟨h0, _⟩ := h
    refine ⟨m0, by simp, .ValueError, ?_⟩
    have hdata : m0.data = s0.body.map splitWs := h0.2.2.2.2.2.2.2.2.2.2.1
    unfold convertToDf
    rw [h0.2.2.2.2.2.2.2.2.2.2.2, hk]
    simp only
    split
    · rfl
    · rw [mapM_except_err_of (e := .ValueError) (fun a _ e' he' => toRow_err he')]
      · rfl
      · refine ⟨splitWs l, by rw [hdata]; exact List.mem_map_of_mem hl, ?_⟩
        cases hr : toRow numeric .e6 (splitWs l) with
        | error e => exact ⟨e, rfl⟩
        | ok r =>
          exfalso
          rw [hw] at hr
          unfold toRow at hr
          simp only [bind, Except.bind, reduceCtorEq, if_false, false_and, List.getElem?_cons_zero, toNumeric, hnum,
            orErr] at hr
          repeat' split at hr
          all_goals simp_all

/-- C65 (part that holds): a mesh followed by another one is returned when its number is requested; its data are the words of
    the lines, not converted to a table. The type is missing (`none`) for an energy mesh that is not the first one. Missing:
    the last mesh of the file (`C65_violated`). -/
theorem C65_select_partial (flt : Str → Option K) (numeric : Str → Option (Option K)) (pre : List Str) (before : List Sec) (s next : Sec)
    (after : List Sec) (text : Str) (hf : FileOf flt pre (before ++ s :: next :: after) text)
    (hn : ∀ s' ∈ before, s'.num ≠ s.num) :
    ∃ m, readMeshtallyText flt numeric (some s.num) text = .ok (.one m) ∧
      RawOf flt (if before = [] ∨ s.kind ≠ .e6 then some s.kind else none) s m := by
  obtain ⟨ms, m, h1, h2, h3⟩ := file_last flt (some s.num) pre before s ((next :: after).flatMap Sec.lines) hf.pre
    (fun s' hs' => ⟨(hf.secs s' (by simp [hs'])).1, (hf.secs s' (by simp [hs'])).2, by simpa using hn s' hs'⟩)
    (hf.secs s (by simp)).1 (hf.secs s (by simp)).2
  refine ⟨m, ?_, ?_⟩
  · have e : pre ++ (before ++ s :: next :: after).flatMap Sec.lines =
        pre ++ ((before ++ [s]).flatMap Sec.lines ++ (next :: after).flatMap Sec.lines) := by simp
    unfold readMeshtallyText
    rw [hf.lines, e, h3, List.flatMap_cons]
    simp only [decide_true]
    rw [sec_return flt (some s.num) next (hf.secs next (by simp)).1]
  · cases before with
    | nil =>
      have : ms = [] := List.length_eq_zero_iff.1 (by simpa using h2)
      subst this
      simpa using h1.1
    | cons b0 bs =>
      cases ms with
      | nil => simp at h2
      | cons m0 ms =>
        obtain ⟨_, h1⟩ := h1
        simp only [List.append_eq] at h1
        have hl : bs.length = ms.length := by simpa using h2.symm
        have hr := h1.get (i := bs.length) (by simp) (by simp [hl])
        simp only [List.get_eq_getElem] at hr
        have e1 : (bs ++ [s])[bs.length]'(by simp) = s := by simp
        have e2 : (ms ++ [m])[bs.length]'(by simp [hl]) = m := by simp [hl]
        rw [e1, e2] at hr
        cases hk : s.kind <;> rw [hk] at hr <;> simpa [typeAfter] using hr

/-- C65 is violated: a request for the last mesh of a file gives the list of all meshes, as if nothing had been requested. -/
theorem C65_violated (flt : Str → Option K) (numeric : Str → Option (Option K)) (pre : List Str) (secs : List Sec) (s : Sec)
    (text : Str) (hf : FileOf flt pre (secs ++ [s]) text) (hn : ∀ s' ∈ secs, s'.num ≠ s.num)
    (hd : ∀ s' ∈ secs ++ [s], DataWF numeric s') (hk : ∀ s' ∈ (secs ++ [s]).tail, s'.kind ≠ .e6) :
    ∃ ms, readMeshtallyText flt numeric (some s.num) text = .ok (.all ms) ∧
      List.Forall₂ (MeshOf flt numeric) (secs ++ [s]) ms := by
  obtain ⟨ms, h1, h2⟩ := read_none flt numeric pre (secs ++ [s]) (by simp) text hf (some s.num) (by simpa using hn)
  have h3 := raws_types h1 hk
  have : ∃ ms', ms.mapM (fun m => (convertToDf numeric m).map m.withData) = .ok ms' ∧
      List.Forall₂ (MeshOf flt numeric) (secs ++ [s]) ms' := by
    clear h1 h2 hf hk hn
    generalize secs ++ [s] = ss at *
    induction h3 with
    | nil => exact ⟨[], rfl, .nil⟩
    | @cons s m secs ms h h' ih =>
      obtain ⟨m', hm', hmo⟩ := convert_ok flt numeric s (hd s (by simp)) m h
      obtain ⟨ms', hms', hmos⟩ := ih (fun s hs => hd s (by simp [hs]))
      refine ⟨m' :: ms', ?_, .cons hmo hmos⟩
      rw [mapM_except_cons_ok (f := fun m => (convertToDf numeric m).map m.withData) hm', hms']
      rfl
  obtain ⟨ms', h4, h5⟩ := this
  refine ⟨ms', ?_, h5⟩
  rw [h2, h4]

/-- C64: the file is read with universal newlines and left alone; a missing file raises FileNotFoundError. -/
theorem C64_file_partial (flt : Str → Option K) (numeric : Str → Option (Option K)) (path : Str) (n : Option Int) (fs : FS) :
    (∀ c, fs.node path = some (.file c) → readMeshtallyFile flt numeric path n fs =
      (readMeshtallyText flt numeric n (univNL c), fs)) ∧
    (fs.node path = none → readMeshtallyFile flt numeric path n fs = (.error .FileNotFoundError, fs)) := by
  constructor
  · intro c h
    unfold readMeshtallyFile
    rw [PyM.bind_ok (a := univNL c) (fs' := fs) (by simp [readText, h])]
    rfl
  · intro h
    unfold readMeshtallyFile
    exact PyM.bind_err (by simp [readText, h])

/-- A section for the examples. -/
def exSec : Sec :=
  ⟨4, p!" Mesh Tally Number         4\n", [(.particle, p!" neutron  mesh tally.\n"), (.plain, p!"\n"),
    (.x, p!"    X direction:      0.00      2.00\n"), (.y, p!"    Y direction:      0.00      2.00\n"),
    (.z, p!"    Z direction:      0.00      2.00\n"), (.e, p!"    Energy bin boundaries: 0.00 20.00\n")], .c5,
    p!"        X         Y         Z     Result     Rel Error\n", [p!" 1.000 1.000 1.000 1.0E-02 0.1\n"]⟩

private theorem notInfix {a b : Str} (h : hasSub a b = false) : ¬ a <:+: b := hasSub_false_iff.1 h

example : exSec.WF where
  num1 := hasSub_iff.1 (by decide +kernel)
  num2 := ⟨p!" Mesh Tally Number        ", p!"4\n", rfl, by decide, by decide +kernel⟩
  num3 := notInfix (by decide +kernel)
  num4 := by intro k hk; cases k <;> first | exact absurd rfl hk | exact notInfix (by decide +kernel)
  hdr := by
    intro h hh
    simp only [exSec, List.mem_cons, List.not_mem_nil, or_false] at hh
    rcases hh with rfl | rfl | rfl | rfl | rfl | rfl <;>
      refine ⟨notInfix (by decide +kernel), notInfix (by decide +kernel), fun k hk => ?_⟩ <;>
      rw [← hasSub_iff] <;> revert hk <;> revert k <;> intro k <;> cases k <;> decide +kernel
  tit1 := notInfix (by decide +kernel)
  tit2 := by intro k hk; cases k <;> first | exact absurd rfl hk | exact notInfix (by decide +kernel)
  tit3 := hasSub_iff.1 (by decide +kernel)
  tit4 := fun h => absurd h (notInfix (by decide +kernel))
  tit5 := fun h => absurd h (notInfix (by decide +kernel))
  body := by
    intro l hl
    simp only [exSec, List.mem_singleton] at hl
    subst hl
    exact notInfix (by decide +kernel)

example : DataWF (fun _ => some (some (1 : ℚ))) exSec := by
  refine ⟨fun _ => ⟨p!" 1.000 1.000 1.000 1.0E-02 0.1\n", by simp [exSec], by decide +kernel⟩, ?_⟩
  intro l hl
  simp only [exSec, List.mem_singleton] at hl
  subst hl
  exact .inr ⟨by decide +kernel, by simp, by simp⟩

end Props
