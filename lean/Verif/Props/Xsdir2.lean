/- Properties C201 and C202 of xsdir_reader.py: files in the format of the MCNP manual. -/
import Verif.Props.Readers

set_option linter.unusedSectionVars false

namespace Props
open Py Xsdir NeutUtilities
variable {F : Type}

/-! ### C201: atomic weight ratios as MCNP writes them -/

/-- A line of pairs, each the identifier of a nuclide and its atomic weight ratio. -/
def AwrPairs (l : Str) (ps : List (Str × Str)) : Prop := Spec.IsWords l (ps.flatMap (fun p => [p.1, p.2]))

private theorem second_word {l k v : Str} {ps : List (Str × Str)} (h : AwrPairs l ps) (he : AwrEntry l k v) : ∃ p ∈ ps, p.2 = k := by
  obtain ⟨_, w0, rest, hw⟩ := he
  unfold AwrPairs at h
  rw [isWords_iff] at h hw
  rw [h] at hw
  cases ps with
  | nil => simp at hw
  | cons p ps =>
    simp only [List.flatMap_cons, List.cons_append, List.nil_append, List.cons.injEq] at hw
    exact ⟨p, by simp, hw.2.1⟩

/-- C201 (violated): in a section of such lines no nuclide is found under its identifier, whatever the numbers. -/
theorem C201_pairs_violated (flt : Str → Option F) (pre tail : List Str) (sec : List (Str × List (Str × Str))) (al : Str)
    (hal : p!"atomic" <+: strip al) (hpre : ∀ l ∈ pre, ¬ p!"atomic" <+: strip l) (hsec : ∀ e ∈ sec, ¬ p!"directory" <+: strip e.1 ∧ AwrPairs e.1 e.2)
    (htail : tail = [] ∨ ∃ dl rest, tail = dl :: rest ∧ p!"directory" <+: strip dl)
    (hdiff : ∀ e ∈ sec, ∀ p ∈ e.2, ∀ e' ∈ sec, ∀ p' ∈ e'.2, p.1 ≠ p'.2) {d : Dict Str F}
    (h : processAwr flt (pre ++ al :: (sec.map (·.1) ++ tail)) = .ok d) : ∀ e ∈ sec, ∀ p ∈ e.2, d.get p.1 = none := by
  obtain ⟨h1, h2⟩ := C25_awr flt pre (sec.map (·.1)) tail al hal hpre (by
    intro l hl
    obtain ⟨e, he, rfl⟩ := List.mem_map.1 hl
    exact (hsec e he).1) htail
  by_cases hbad : ∃ l ∈ sec.map (·.1), ∃ k v, AwrEntry l k v ∧ flt v = none
  · rw [h1 hbad] at h; cases h
  · obtain ⟨d', hd', _, _, hget⟩ := h2 hbad
    rw [h] at hd'
    cases hd'
    intro e he p hp
    cases hg : d.get p.1 with
    | none => rfl
    | some x =>
      obtain ⟨a, l, b, v, hl, hentry, _, _⟩ := (hget _ _).1 hg
      obtain ⟨e', he', rfl⟩ := List.mem_map.1 (show l ∈ sec.map (·.1) by rw [hl]; simp)
      obtain ⟨p', hp', hpk⟩ := second_word (hsec e' he').2 hentry
      exact absurd hpk.symm (hdiff e he p hp e' he' p' hp')

/-- C201 (part that holds): nuclides with one line each, behind a leading word, are found under their identifier. Missing: the pairs
    of the MCNP manual. -/
theorem C201_leading_partial (flt : Str → Option F) (pre tail : List Str) (sec : List (Str × Str × Str × F)) (al : Str)
    (hal : p!"atomic" <+: strip al) (hpre : ∀ l ∈ pre, ¬ p!"atomic" <+: strip l)
    (hsec : ∀ e ∈ sec, ¬ p!"directory" <+: strip e.1 ∧ ¬ p!"atomic" <+: strip e.1 ∧ (∃ w, Spec.IsWords e.1 [w, e.2.1, e.2.2.1]) ∧ flt e.2.2.1 = some e.2.2.2)
    (htail : tail = [] ∨ ∃ dl rest, tail = dl :: rest ∧ p!"directory" <+: strip dl) (hnd : (sec.map (fun e => e.2.1)).Nodup) :
    ∃ d, processAwr flt (pre ++ al :: (sec.map (·.1) ++ tail)) = .ok d ∧ ∀ e ∈ sec, d.get e.2.1 = some e.2.2.2 := by
  obtain ⟨_, h2⟩ := C25_awr flt pre (sec.map (·.1)) tail al hal hpre (by
    intro l hl
    obtain ⟨e, he, rfl⟩ := List.mem_map.1 hl
    exact (hsec e he).1) htail
  have hent : ∀ e ∈ sec, ∀ k v, AwrEntry e.1 k v → k = e.2.1 ∧ v = e.2.2.1 := by
    rintro e he k v ⟨_, w0, rest, hw⟩
    obtain ⟨_, _, ⟨w, hw'⟩, _⟩ := hsec e he
    rw [isWords_iff] at hw hw'
    rw [hw'] at hw
    simp only [List.cons.injEq] at hw
    exact ⟨hw.2.1.symm, hw.2.2.1.symm⟩
  obtain ⟨d, hd, _, _, hget⟩ := h2 (by
    rintro ⟨l, hl, k, v, hentry, hbad⟩
    obtain ⟨e, he, rfl⟩ := List.mem_map.1 hl
    obtain ⟨_, rfl⟩ := hent e he k v hentry
    rw [(hsec e he).2.2.2] at hbad
    cases hbad)
  refine ⟨d, hd, ?_⟩
  intro e he
  obtain ⟨a, b, rfl⟩ := List.mem_iff_append.1 he
  rw [hget]
  obtain ⟨_, hna, ⟨w, hw⟩, hf⟩ := hsec e he
  refine ⟨a.map (·.1), e.1, b.map (·.1), e.2.2.1, by simp, ⟨hna, w, [], hw⟩, hf, ?_⟩
  intro l' hl' v' hentry
  obtain ⟨e', he', rfl⟩ := List.mem_map.1 hl'
  obtain ⟨hk, _⟩ := hent e' (by simp [he']) _ _ hentry
  rw [List.map_append, List.map_cons, List.nodup_append] at hnd
  exact (List.nodup_cons.1 hnd.2.1).1 (hk ▸ List.mem_map.2 ⟨e', he', rfl⟩)

example : processAwr pyNat [p!"atomic weight ratios", p!" 1001 9 1002 19", p!" 2003 29 2004 39", p!"directory"] =
    .ok [(p!"9", 1002), (p!"29", 2004)] := by decide
example : AwrPairs p!" 1001 9 1002 19" [(p!"1001", p!"9"), (p!"1002", p!"19")] := by
  unfold AwrPairs; rw [isWords_iff]; decide

/-! ### C202: entries of the directory continued on the next line -/

/-- C202 (violated): of an entry that a trailing + continues on the next line only the first part is kept, with the +, and the
    continuation becomes an entry of its own. -/
theorem C202_continued_violated (flt : Str → Option F) (fs : FS) (fpath : Str) (xs : XSDir F) (pre a b : List Str) (dl l l' : Str)
    (hok : (readXsdir flt fpath fs).1 = .ok xs) (hlines : (getLines fpath fs).1 = .ok (pre ++ dl :: (a ++ l :: l' :: b)))
    (hdl : p!"directory" <+: strip dl) (hpre : ∀ l ∈ pre, ¬ p!"directory" <+: strip l) {k k' : Str} {v v' : List Str}
    (hl : Spec.IsWords l (k :: (v ++ [p!"+"]))) (hl' : Spec.IsWords l' (k' :: v')) (hv : v' ≠ []) (hd : ¬ p!"directory" <+: strip l)
    (hd' : ¬ p!"directory" <+: strip l') (hkk : k' ≠ k) (hb : ∀ m ∈ b, ∀ w, ¬ DirEntry m k w) :
    xs.directory.get k = some (v ++ [p!"+"]) ∧ xs.directory.get k ≠ some (v ++ k' :: v') ∧ k' ∈ xs.directory.keys := by
  obtain ⟨h1, h2, _⟩ := C24_directory flt fs fpath xs pre (a ++ l :: l' :: b) dl hok hlines hdl hpre
  have hget : xs.directory.get k = some (v ++ [p!"+"]) := by
    rw [h1]
    refine ⟨a, l, l' :: b, rfl, ⟨hd, by simp, hl⟩, ?_⟩
    intro m hm w hw
    rcases List.mem_cons.1 hm with rfl | hm
    · obtain ⟨_, _, hw⟩ := hw
      rw [isWords_iff] at hw hl'
      rw [hl'] at hw
      exact hkk (List.cons.inj hw).1
    · exact hb m hm w hw
  refine ⟨hget, ?_, (h2 k').2 ⟨l', by simp, v', hd', hv, hl'⟩⟩
  rw [hget]
  intro h
  have := congrArg List.length (Option.some.inj h)
  have hpos : 0 < v'.length := List.length_pos_iff.2 hv
  simp at this
  exact hv this

/-- C202 (part that holds): an entry on one line is kept whole. Missing: continued entries. -/
theorem C202_single_partial (flt : Str → Option F) (fs : FS) (fpath : Str) (xs : XSDir F) (pre a b : List Str) (dl l : Str)
    (hok : (readXsdir flt fpath fs).1 = .ok xs) (hlines : (getLines fpath fs).1 = .ok (pre ++ dl :: (a ++ l :: b)))
    (hdl : p!"directory" <+: strip dl) (hpre : ∀ l ∈ pre, ¬ p!"directory" <+: strip l) {k : Str} {v : List Str}
    (hl : Spec.IsWords l (k :: v)) (hv : v ≠ []) (hd : ¬ p!"directory" <+: strip l)
    (hb : ∀ m ∈ b, ∀ w, ¬ Spec.IsWords m (k :: w)) : xs.directory.get k = some v := by
  obtain ⟨h1, _, _⟩ := C24_directory flt fs fpath xs pre (a ++ l :: b) dl hok hlines hdl hpre
  rw [h1]
  exact ⟨a, l, b, rfl, ⟨hd, hv, hl⟩, fun m hm w hw => hb m hm w hw.2.2⟩

example : ((readXsdir pyNat p!"f" (exFS p!"directory\n1001.60c 0.9 endf60 +\n 2.5 ptable\n")).1.map (·.directory)) =
    .ok [(p!"1001.60c", [p!"0.9", p!"endf60", p!"+"]), (p!"2.5", [p!"ptable"])] := by rfl

end Props
