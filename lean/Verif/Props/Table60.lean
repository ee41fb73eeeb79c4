/- Property C205 of mcnp_output_reader.py: the rows of print table 60 in a whole output file. -/
import Verif.Props.McnpOutput6

set_option linter.unusedSectionVars false
set_option linter.unusedSimpArgs false

namespace Props
open Py Spec NeutUtilities McnpOutput

/-- The words of a line after the first one. -/
def LaterWords (l : Str) (ws : List Str) : Prop := ∃ vs, IsWords l vs ∧ ws = vs.drop 1

private theorem table60_rows {lines before hdr body rest cols : List Str} {term : Str} {start : Nat} {rs : List (List Str)}
    (he : lines = before ++ (hdr ++ body) ++ term :: rest) (hb : before.length = start) (hh : hdr.length = 5) (hm : 3 ≤ body.length)
    (ht : p!"    minimum source weight" <+: term) (hn : ∀ l ∈ before ++ (hdr ++ body), ¬ p!"    minimum source weight" <+: l)
    (h : readTable60 lines start = .ok (cols, rs)) : List.Forall₂ LaterWords (body.take (body.length - 3)) rs := by
  have hfind : findLine p!"    minimum source weight" lines 25 = .ok (start + (body.length + 5)) := by
    rw [he, findLine_prefix (k := 25) rfl]
    have hl : (before ++ (hdr ++ body)).length = start + (body.length + 5) := by simp [hb, hh]; omega
    refine ⟨⟨term, ?_, ht⟩, ?_⟩
    · rw [List.getElem?_append_right (by omega), hl, Nat.sub_self]; rfl
    · rintro j hj ⟨x, hx, hp⟩
      rw [List.getElem?_append_left (by omega)] at hx
      exact hn x (List.mem_of_getElem? hx) hp
  have hsl : slice lines start (start + (body.length + 5)) = hdr ++ body := by
    unfold slice
    rw [List.drop_take, he, List.append_assoc, List.drop_append_of_le_length (by omega), List.drop_of_length_le (by omega), List.nil_append,
      List.take_append_of_le_length (by simp [hh]; omega)]
    apply List.take_of_length_le
    simp [hh]; omega
  have hsi : sliceI ((hdr ++ body).map stringCleaner) 5 (-3) = (body.take (body.length - 3)).map stringCleaner := by
    unfold sliceI slice clamp
    simp only [List.map_append, List.length_append, List.length_map, hh]
    rw [if_pos (by decide), if_neg (by decide)]
    have e1 : min (5 : Int).toNat (5 + body.length) = 5 := by show min 5 _ = 5; omega
    have e2 : (5 + body.length) - min (-(-3) : Int).toNat (5 + body.length) = 5 + (body.length - 3) := by show _ - min 3 _ = _; omega
    rw [e1, e2, List.drop_take, List.drop_append_of_le_length (by simp [hh]), List.drop_of_length_le (by simp [hh]), List.nil_append, List.map_take]
    congr 1
    omega
  unfold readTable60 at h
  rw [hfind, ex_ok_bind] at h
  simp only [hsl, ex_bind_ok] at h
  obtain ⟨_, _, _, _, _, _, _, _, _, _, _, _, _, _, _, _, _, _, _, _, _, _, h⟩ := h
  rw [hsi] at h
  unfold frame at h
  split_ifs at h
  simp only [Except.ok.injEq, Prod.mk.injEq] at h
  rw [← h.2, List.map_map, List.forall₂_map_right_iff]
  refine List.forall₂_same.2 (fun r _ => ⟨splitWs r, isWords_iff.2 rfl, ?_⟩)
  exact splitOn_stringCleaner_drop r 1 (by decide)

/-- C205 (violated): when more than three lines stand between the last cell of table 60 and the line of the minimum source weight, as when
    table 70 is printed, these lines, except for the last three, become rows of the table. -/
theorem C205_rows_violated {lines before hdr rows mid rest cols : List Str} {term : Str} {start : Nat} {rs : List (List Str)}
    (he : lines = before ++ (hdr ++ (rows ++ mid)) ++ term :: rest) (hb : before.length = start) (hh : hdr.length = 5) (hm : 3 < mid.length)
    (ht : p!"    minimum source weight" <+: term) (hn : ∀ l ∈ before ++ (hdr ++ (rows ++ mid)), ¬ p!"    minimum source weight" <+: l)
    (h : readTable60 lines start = .ok (cols, rs)) :
    List.Forall₂ LaterWords (rows ++ mid.take (mid.length - 3)) rs ∧ rs.length > rows.length := by
  have := table60_rows he hb hh (by simp; omega) ht hn h
  rw [List.length_append, List.take_append, List.take_of_length_le (by omega),
    show rows.length + mid.length - 3 - rows.length = mid.length - 3 by omega] at this
  refine ⟨this, ?_⟩
  have hl := this.length_eq
  rw [List.length_append, List.length_take] at hl
  omega

/-- C205 (part that holds): with exactly three lines between them there is one row for each cell. Missing: any other number. -/
theorem C205_rows_partial {lines before hdr rows mid rest cols : List Str} {term : Str} {start : Nat} {rs : List (List Str)}
    (he : lines = before ++ (hdr ++ (rows ++ mid)) ++ term :: rest) (hb : before.length = start) (hh : hdr.length = 5) (hm : mid.length = 3)
    (ht : p!"    minimum source weight" <+: term) (hn : ∀ l ∈ before ++ (hdr ++ (rows ++ mid)), ¬ p!"    minimum source weight" <+: l)
    (h : readTable60 lines start = .ok (cols, rs)) : List.Forall₂ LaterWords rows rs := by
  have := table60_rows he hb hh (by simp; omega) ht hn h
  rwa [List.length_append, List.take_append_of_le_length (by omega), List.take_of_length_le (by omega)] at this

/-- A file with table 70 behind table 60, as in the files of the tests: one cell gives eight rows. -/
example : (readTable60 [p!"1cells print table 60", p!"", p!"  atom gram neutron", p!" cell mat density density volume importance", p!"", p!" 1 1 2 3.0 4.0 5.0 1.0",
    p!"", p!" total 4.0", p!"1surfaces print table 70", p!"", p!"  surface trans type surface coefficients", p!"", p!" 1 1 so 5.0", p!" 2 2 so 10.0", p!" 3 3 so 20.0", p!"",
    p!"    minimum source weight = 1"] 0).map (fun t => (t.2.length, t.2[2]?, t.2[3]?)) =
    .ok (8, some [p!"4.0"], some [p!"print", p!"table", p!"70"]) := by decide +kernel

end Props
