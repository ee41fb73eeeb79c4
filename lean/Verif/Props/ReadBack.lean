/-
C304, C305: tables and points that were written are read back, and points of lost particles.
-/
import Verif.Props.OutputUtilities
import Verif.Props.NeutUtilities
import Verif.Proofs.McnpInput

set_option linter.unusedSectionVars false

namespace Props
open Py NeutUtilities OutputUtilities

/-- The fields of a row of a table, cut at every comma. -/
def CommaFields (row : Str) (fields : List Str) : Prop :=
  ∃ f rest, fields = f :: rest ∧ (∀ g ∈ fields, ',' ∉ g) ∧ row = f ++ rest.flatMap (',' :: ·)

private theorem join_fields : ∀ (f : Str) (rest : List Str), join [','] (f :: rest) = f ++ rest.flatMap (',' :: ·)
  | f, [] => by simp [join]
  | f, g :: rest => by
    show f ++ ([','] ++ join [','] (g :: rest)) = _
    rw [join_fields g rest]; simp

private theorem fields_fun {row : Str} {fields fields' : List Str} (h : CommaFields row fields) (h' : CommaFields row fields') : fields = fields' := by
  obtain ⟨f, rest, rfl, hn, rfl⟩ := h
  obtain ⟨f', rest', rfl, hn', e⟩ := h'
  rw [← splitOn_join (by simp) hn, ← splitOn_join (by simp) hn', join_fields, join_fields, e]

private theorem fields_count {row : Str} {fields : List Str} (h : CommaFields row fields) : fields.length = row.count ',' + 1 := by
  obtain ⟨f, rest, rfl, hn, rfl⟩ := h
  have : ∀ l : List Str, (∀ g ∈ l, ',' ∉ g) → (l.flatMap (',' :: ·)).count ',' = l.length := by
    intro l
    induction l with
    | nil => simp
    | cons g l ih =>
      intro h
      rw [List.flatMap_cons, List.cons_append, List.count_cons_self, List.count_append, List.count_eq_zero_of_not_mem (h g (by simp)),
        ih (fun x hx => h x (by simp [hx]))]
      simp
  rw [List.count_append, List.count_eq_zero_of_not_mem (hn f (by simp)), this rest (fun g hg => hn g (by simp [hg]))]
  simp

/-- The row that is written for a tally and a cell. -/
private def rowOf {α : Type} (str : α → Str) (q : α × α × α × α) : Str :=
  str q.1 ++ p!", " ++ str q.2.1 ++ p!", " ++ str q.2.2.1 ++ p!", " ++ str q.2.2.2

private theorem rows_read {α : Type} (str : α → Str) (ts : List (Tally α)) (fname : Str) (fs : FS) (hw : fs.canWrite fname = true) (hc : Complete ts)
    (hb : ∀ q ∈ quads ts, Spec.NoBoundary (str q.1) ∧ Spec.NoBoundary (str q.2.1) ∧ Spec.NoBoundary (str q.2.2.1) ∧ Spec.NoBoundary (str q.2.2.2)) :
    (getLines fname (csvOut str (.many ts) fname fs).2).1 = .ok ((quads ts).map (rowOf str)) := by
  have hl : ∀ l ∈ (quads ts).map (rowOf str), Spec.NoBoundary l := by
    intro l hl
    obtain ⟨q, hq, rfl⟩ := List.mem_map.1 hl
    obtain ⟨h1, h2, h3, h4⟩ := hb q hq
    intro c hc
    simp only [rowOf, List.mem_append, List.mem_cons, List.not_mem_nil, or_false] at hc
    rcases hc with (((((h | h) | h) | h) | h) | h) | h
    · exact h1 c h
    · rcases h with rfl | rfl <;> decide
    · exact h2 c h
    · rcases h with rfl | rfl <;> decide
    · exact h3 c h
    · rcases h with rfl | rfl <;> decide
    · exact h4 c h
  rw [← (C01_round_trip_iff fs fname _ hw).2] at hl
  rw [C17_csv str ts fname fs hw hc, ← hl, writeLines_ok _ hw, List.flatMap_map]
  simp [rowOf]

/-- C304 (part that holds): the table of tallies is read back row by row, with the four values of a row as its fields (behind each comma
    stands a blank). Missing: values whose text has a comma (`C304_comma_violated`). -/
theorem C304_csv_partial {α : Type} (str : α → Str) (ts : List (Tally α)) (fname : Str) (fs : FS) (hw : fs.canWrite fname = true) (hc : Complete ts)
    (hb : ∀ q ∈ quads ts, ∀ s ∈ [str q.1, str q.2.1, str q.2.2.1, str q.2.2.2], Spec.NoBoundary s ∧ ',' ∉ s) :
    ∃ rows, (getLines fname (csvOut str (.many ts) fname fs).2).1 = .ok rows ∧
      List.Forall₂ (fun row q => ∀ fields, CommaFields row fields ↔
        fields = [str q.1, ' ' :: str q.2.1, ' ' :: str q.2.2.1, ' ' :: str q.2.2.2]) rows (quads ts) := by
  refine ⟨_, rows_read str ts fname fs hw hc (fun q hq => ⟨(hb q hq _ (by simp)).1, (hb q hq _ (by simp)).1, (hb q hq _ (by simp)).1,
    (hb q hq _ (by simp)).1⟩), ?_⟩
  rw [List.forall₂_map_left_iff, List.forall₂_same]
  intro q hq fields
  have key : CommaFields (rowOf str q) [str q.1, ' ' :: str q.2.1, ' ' :: str q.2.2.1, ' ' :: str q.2.2.2] := by
    refine ⟨_, _, rfl, ?_, by simp [rowOf]⟩
    intro g hg
    simp only [List.mem_cons, List.not_mem_nil, or_false] at hg
    rcases hg with rfl | rfl | rfl | rfl
    · exact (hb q hq _ (by simp)).2
    all_goals
      simp only [List.mem_cons, not_or]
      exact ⟨by decide, (hb q hq _ (by simp)).2⟩
  exact ⟨fun h => fields_fun h key, fun h => h ▸ key⟩

/-- C304 is violated: a value whose text has a comma, as that of a list of results in energy bins, gives a row with more than four fields. -/
theorem C304_comma_violated {α : Type} (str : α → Str) (ts : List (Tally α)) (fname : Str) (fs : FS) (hw : fs.canWrite fname = true)
    (hc : Complete ts)
    (hb : ∀ q ∈ quads ts, Spec.NoBoundary (str q.1) ∧ Spec.NoBoundary (str q.2.1) ∧ Spec.NoBoundary (str q.2.2.1) ∧ Spec.NoBoundary (str q.2.2.2))
    {q : α × α × α × α} (hq : q ∈ quads ts) (hcomma : ',' ∈ str q.2.2.1) :
    ∃ rows, (getLines fname (csvOut str (.many ts) fname fs).2).1 = .ok rows ∧ ∃ row ∈ rows, ∀ fields, CommaFields row fields → 4 < fields.length := by
  refine ⟨_, rows_read str ts fname fs hw hc hb, rowOf str q, List.mem_map_of_mem hq, fun fields hf => ?_⟩
  rw [fields_count hf]
  have := List.count_pos_iff.2 hcomma
  simp only [rowOf, List.count_append, show List.count ',' p!", " = 1 from rfl]
  omega

private theorem boundary_space {c : Char} (h : isSpace c = false) : c ∉ Spec.boundaries := by
  intro hb
  simp only [Spec.boundaries, List.mem_cons, List.not_mem_nil, or_false] at hb
  rcases hb with rfl | rfl | rfl | rfl | rfl | rfl | rfl | rfl | rfl | rfl <;> exact absurd h (by decide)

private theorem four_words {a b c d : Str} (ha : Spec.IsWord a) (hb : Spec.IsWord b) (hc : Spec.IsWord c) (hd : Spec.IsWord d) :
    Spec.IsWords (a ++ p!" " ++ b ++ p!" " ++ c ++ p!" " ++ d) [a, b, c, d] ∧ Spec.NoBoundary (a ++ p!" " ++ b ++ p!" " ++ c ++ p!" " ++ d) := by
  constructor
  · have e : a ++ p!" " ++ b ++ p!" " ++ c ++ p!" " ++ d = [] ++ a ++ (p!" " ++ b ++ (p!" " ++ c ++ (p!" " ++ d ++ []))) := by simp
    rw [e]
    have hsp : Spec.Blank p!" " := by intro c hc; simp at hc; subst hc; decide
    exact .word (by intro c hc; cases hc) ha (by simp; decide) (.word hsp hb (by simp; decide) (.word hsp hc (by simp; decide)
      (.word hsp hd (by simp) (.blank (by intro c hc; cases hc)))))
  · intro x hx
    simp only [List.mem_append, List.mem_singleton] at hx
    rcases hx with (((((h | rfl) | h) | rfl) | h) | rfl) | h
    · exact boundary_space (ha.2 _ h)
    · decide
    · exact boundary_space (hb.2 _ h)
    · decide
    · exact boundary_space (hc.2 _ h)
    · decide
    · exact boundary_space (hd.2 _ h)

/-- C304: the points are read back: behind the line with the titles there is a line for each point, whose words are the coordinates and the
    value. -/
theorem C304_points {α β : Type} (str : α → Str) (strD : β → Str) (xs ys zs : List α) (d : List β) (outpath : Str) (fs : FS)
    (hw : fs.canWrite (outpath ++ p!".3d") = true) (h1 : xs.length = ys.length) (h2 : xs.length = zs.length) (h3 : d.length = xs.length)
    (hs : ∀ x, Spec.IsWord (str x)) (hd : ∀ v, Spec.IsWord (strD v)) :
    ∃ rows, (getLines (outpath ++ p!".3d") (outputPoints str strD xs ys zs (some d) outpath fs).2).1 = .ok (p!"x y z temp" :: rows) ∧
      rows.length = xs.length ∧ ∀ (i : Nat) (x y z : α) (v : β), xs[i]? = some x → ys[i]? = some y → zs[i]? = some z → d[i]? = some v →
        ∃ row, rows[i]? = some row ∧ Spec.IsWords row [str x, str y, str z, strD v] := by
  obtain ⟨rows, hr, hl, hi⟩ := C16_rows str strD xs ys zs (some d) outpath fs hw h1 h2 (by simpa using h3)
  have key : ∀ (i : Nat) (x y z : α) (v : β), xs[i]? = some x → ys[i]? = some y → zs[i]? = some z → d[i]? = some v →
      rows[i]? = some (str x ++ p!" " ++ str y ++ p!" " ++ str z ++ p!" " ++ strD v) :=
    fun i x y z v hx hy hz hv => (hi i x y z hx hy hz).2 d v rfl hv
  refine ⟨rows, ?_, hl, fun i x y z v hx hy hz hv => ⟨_, key i x y z v hx hy hz hv, (four_words (hs x) (hs y) (hs z) (hd v)).1⟩⟩
  have hall : ∀ l ∈ p!"x y z temp" :: rows, Spec.NoBoundary l := by
    intro l hm
    rcases List.mem_cons.1 hm with rfl | hm
    · unfold Spec.NoBoundary; decide
    · obtain ⟨i, hi', e⟩ := List.getElem_of_mem hm
      have hx : i < xs.length := hl ▸ hi'
      have := key i xs[i] ys[i] zs[i] d[i] (List.getElem?_eq_getElem _) (List.getElem?_eq_getElem _) (List.getElem?_eq_getElem _)
        (List.getElem?_eq_getElem _)
      rw [List.getElem?_eq_getElem hi', e] at this
      cases this
      exact (four_words (hs _) (hs _) (hs _) (hd _)).2
  rw [← (C01_round_trip_iff fs (outpath ++ p!".3d") _ hw).2] at hall
  rw [hr, ← hall, writeLines_ok _ hw]

/-- A table of two cells and its file; a list as a result. -/
example : ∃ rows, (getLines p!"o" (csvOut natStr (.many [exTally]) p!"o" (exFS [])).2).1 = .ok rows ∧ rows = [p!"4, 1, 10, 5", p!"4, 2, 20, 6"] :=
  ⟨_, by decide +kernel, rfl⟩

example : ∃ rows, (getLines p!"o" (csvOut id (.many [⟨p!"4", [p!"1"], [p!"[1.0, 2.0]"], [p!"[0.1, 0.2]"]⟩]) p!"o" (exFS [])).2).1 = .ok rows ∧
    ∃ row ∈ rows, ∀ fields, CommaFields row fields → 4 < fields.length :=
  C304_comma_violated id _ _ _ (by decide) (by intro t ht; simp at ht; subst ht; decide)
    (by intro q hq; simp [quads] at hq; subst hq; unfold Spec.NoBoundary; decide +kernel) (q := (p!"4", p!"1", p!"[1.0, 2.0]", p!"[0.1, 0.2]"))
    (by simp [quads]) (by decide)

example : ∃ rows, (getLines p!"o.3d" (outputPoints (fun b : Bool => if b then p!"1.5" else p!"-2") (fun _ : Unit => p!"7") [true, false] [true, true]
      [false, false] (some [(), ()]) p!"o" (exFS [])).2).1 = .ok (p!"x y z temp" :: rows) ∧ rows.length = 2 := by
  obtain ⟨rows, h1, h2, _⟩ := C304_points (fun b : Bool => if b then p!"1.5" else p!"-2") (fun _ : Unit => p!"7") [true, false] [true, true]
    [false, false] [(), ()] p!"o" (exFS []) (by decide) rfl rfl rfl (by intro x; cases x <;> exact ⟨by simp, by decide⟩)
    (by intro _; exact ⟨by simp, by decide⟩)
  exact ⟨rows, h1, h2⟩

/-! ### C305: the file of lost points belongs to the output -/

/-- C305 (part that holds): if particles were lost, the file has one line for each of them, in order, and reading its words gives back the
    coordinates of the output. Missing: outputs without lost particles (`C305_old_file_violated`). -/
theorem C305_lost_partial {F : Type} (flt : Str → Option F) (str : F → Str) (path outpath content : Str) (fs : FS)
    (ls : List Str) (last : Str) (pts : List (F × F × F)) (hnode : fs.node path = some (.file content))
    (htext : univNL content = ls.flatMap (fun l => l ++ ['\n']) ++ last)
    (hnl : ∀ l ∈ ls ++ [last], '\n' ∉ l) (hw : fs.canWrite (outpath ++ p!".3d") = true)
    (hpts : CoordsOf flt ((ls ++ [last]).filter (fun l => decide (p!"x,y,z coordinates:" <:+: l))) pts)
    (hs : ∀ x, Spec.IsWord (str x)) (hf : ∀ x, flt (str x) = some x) (hne : pts ≠ []) :
    ∃ rows, (getLines (outpath ++ p!".3d") (LostPoints.outputLostPoints flt str path outpath fs).2).1 = .ok (p!"x y z temp" :: rows) ∧
      List.Forall₂ (fun row p => ∃ a b c, Spec.IsWords row [a, b, c, p!"1"] ∧ flt a = some p.1 ∧ flt b = some p.2.1 ∧ flt c = some p.2.2) rows pts := by
  have h2 := (C20_complete flt str path outpath content fs ls last pts hnode htext hnl hw hpts).2
  rw [if_neg hne] at h2
  have one : Spec.IsWord p!"1" := ⟨by simp, by decide⟩
  refine ⟨pts.map (fun p => str p.1 ++ p!" " ++ str p.2.1 ++ p!" " ++ str p.2.2 ++ p!" " ++ p!"1"), ?_, ?_⟩
  · have hall : ∀ l ∈ p!"x y z temp" :: pts.map (fun p => str p.1 ++ p!" " ++ str p.2.1 ++ p!" " ++ str p.2.2 ++ p!" " ++ p!"1"),
        Spec.NoBoundary l := by
      intro l hm
      rcases List.mem_cons.1 hm with rfl | hm
      · unfold Spec.NoBoundary; decide
      · obtain ⟨p, _, rfl⟩ := List.mem_map.1 hm
        exact (four_words (hs _) (hs _) (hs _) one).2
    rw [← (C01_round_trip_iff fs (outpath ++ p!".3d") _ hw).2] at hall
    rw [h2, ← hall, writeLines_ok _ hw]
    simp [List.flatMap_map]
  · rw [List.forall₂_map_left_iff, List.forall₂_same]
    exact fun p _ => ⟨_, _, _, (four_words (hs _) (hs _) (hs _) one).1, hf _, hf _, hf _⟩

/-- C305 is violated: if no particle was lost, the file of an earlier run stays, with the points of another output. -/
theorem C305_old_file_violated {F : Type} (flt : Str → Option F) (str : F → Str) (path outpath content old : Str) (fs : FS)
    (ls : List Str) (last : Str) (hnode : fs.node path = some (.file content))
    (htext : univNL content = ls.flatMap (fun l => l ++ ['\n']) ++ last) (hnl : ∀ l ∈ ls ++ [last], '\n' ∉ l)
    (hw : fs.canWrite (outpath ++ p!".3d") = true) (hold : fs.node (outpath ++ p!".3d") = some (.file old))
    (hno : ∀ l ∈ ls ++ [last], ¬ p!"x,y,z coordinates:" <:+: l) :
    (LostPoints.outputLostPoints flt str path outpath fs).1 = .ok 0 ∧
    (LostPoints.outputLostPoints flt str path outpath fs).2.node (outpath ++ p!".3d") = some (.file old) := by
  have e : (ls ++ [last]).filter (fun l => decide (p!"x,y,z coordinates:" <:+: l)) = [] := by
    rw [List.filter_eq_nil_iff]; intro l hl; simpa using hno l hl
  obtain ⟨h1, h2⟩ := C20_complete flt str path outpath content fs ls last [] hnode htext hnl hw (by rw [e]; exact .nil)
  rw [h1, h2, e]
  exact ⟨rfl, hold⟩

/-- An output without lost particles beside the file of another one. -/
example : (LostPoints.outputLostPoints exFlt natStr p!"f" p!"o" ((exFS p!"no particle lost\n").put p!"o.3d" (.file p!"x y z temp\n1 2 3 1\n"))).1 = .ok 0 ∧
    (LostPoints.outputLostPoints exFlt natStr p!"f" p!"o" ((exFS p!"no particle lost\n").put p!"o.3d" (.file p!"x y z temp\n1 2 3 1\n"))).2.node p!"o.3d" =
      some (.file p!"x y z temp\n1 2 3 1\n") := by decide +kernel

example : ∃ rows, (getLines p!"o.3d" (LostPoints.outputLostPoints exFlt natStr p!"f" p!"o" (exFS (exLost ++ p!"\nother\n" ++ exLost))).2).1 =
    .ok (p!"x y z temp" :: rows) ∧ rows = [p!"11 22 33 1", p!"11 22 33 1"] := ⟨_, by decide +kernel, rfl⟩

end Props
