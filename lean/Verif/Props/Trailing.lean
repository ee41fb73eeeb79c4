/-
C278: blanks at the end of the lines of a file.
-/
import Verif.Props.MeshtalReader
import Verif.Props.Readers
import Verif.Props.McnpOutput
import Verif.Proofs.OutputUtilities
import Verif.Proofs.Except

set_option linter.unusedSectionVars false

namespace Props
open Py NeutUtilities

/-- The second line is the first one and blanks behind it. -/
def Trailing (l l' : Str) : Prop := ∃ t, (∀ c ∈ t, c = ' ' ∨ c = '\t') ∧ l' = l ++ t

/-- The second text is the first one with blanks at the end of its lines. -/
def TrailingText (c c' : Str) : Prop := List.Forall₂ Trailing (splitlines (univNL c)) (splitlines (univNL c'))

private theorem blank_space {t : Str} (h : ∀ c ∈ t, c = ' ' ∨ c = '\t') : ∀ c ∈ t, isSpace c = true := by
  intro c hc
  rcases h c hc with rfl | rfl <;> decide

private theorem words_trail {l l' : Str} (h : Trailing l l') : splitWs l' = splitWs l := by
  obtain ⟨t, ht, rfl⟩ := h
  exact splitWs_append_blank (blank_space ht)

private theorem strip_trail {l l' : Str} (h : Trailing l l') : strip l' = strip l := by
  obtain ⟨t, ht, rfl⟩ := h
  exact strip_append_blank (blank_space ht)

private theorem clean_trail {l l' : Str} (h : Trailing l l') : stringCleanAndSplit l' = stringCleanAndSplit l := by
  unfold stringCleanAndSplit stringCleaner
  rw [strip_trail h]

section ptrac
open Ptrac
variable {F : Type}

private theorem tracks_trail (flt : Str → Option F) {a b : List Str} (h : List.Forall₂ Trailing a b) : ∀ hs cur temp,
    tracksLoop flt hs cur temp b = tracksLoop flt hs cur temp a := by
  induction h with
  | nil => intro _ _ _; rfl
  | cons hl _ ih =>
    intro hs cur temp
    simp only [tracksLoop, clean_trail hl, ih]

private theorem drop_forall₂ {α β : Type} {R : α → β → Prop} {a : List α} {b : List β} (h : List.Forall₂ R a b) (n : Nat) :
    List.Forall₂ R (a.drop n) (b.drop n) := List.forall₂_drop n h

/-- C278 (part that holds): files of tracks. -/
theorem C278_ptrac_partial (flt : Str → Option F) (path c c' : Str) (h : TrailingText c c') (fs fs' : FS) (hf : fs.node path = some (.file c))
    (hf' : fs'.node path = some (.file c')) : (readPtrac flt path fs').1 = (readPtrac flt path fs).1 := by
  unfold readPtrac
  rw [PyM.bind_ok (getLines_file hf), PyM.bind_ok (getLines_file hf')]
  simp only [PyM.lift, removeHeader, processTracks]
  exact tracks_trail flt (drop_forall₂ h 9) _ _ _

example : TrailingText p!"1 2\nx" p!"1 2  \nx\t\n" :=
  .cons ⟨p!"  ", by simp, rfl⟩ (.cons ⟨p!"\t", by simp, rfl⟩ .nil)

end ptrac

section xsdir
open Xsdir
variable {F : Type}

private theorem lower_trail {l l' : Str} (h : Trailing l l') : Trailing (lower l) (lower l') := by
  obtain ⟨t, ht, rfl⟩ := h
  refine ⟨lower t, ?_, by simp [lower]⟩
  intro c hc
  simp only [lower, List.mem_map] at hc
  obtain ⟨d, hd, rfl⟩ := hc
  rcases ht d hd with rfl | rfl
  · exact .inl (by decide)
  · exact .inr (by decide)

private theorem split_trail (l t : Str) (ht : '=' ∉ t) : ∃ ps x, splitOn '=' l = ps ++ [x] ∧ splitOn '=' (l ++ t) = ps ++ [x ++ t] := by
  unfold splitOn
  induction l with
  | nil => exact ⟨[], [], rfl, splitP_of_not_mem (by intro c hc; simp; rintro rfl; exact ht hc)⟩
  | cons c l ih =>
    obtain ⟨ps, x, h1, h2⟩ := ih
    by_cases hc : c = '='
    · rw [List.cons_append, splitP_cons_pos (by simp [hc]), splitP_cons_pos (by simp [hc]), h1, h2]
      exact ⟨[] :: ps, x, rfl, rfl⟩
    · rw [List.cons_append, splitP_cons_neg (by simp [hc]), splitP_cons_neg (by simp [hc]), h1, h2]
      cases ps with
      | nil => exact ⟨[], c :: x, rfl, rfl⟩
      | cons q ps => exact ⟨(c :: q) :: ps, x, rfl, rfl⟩

private theorem piece_trail {l l' : Str} (h : Trailing l l') : ((splitOn '=' l')[1]?).map strip = ((splitOn '=' l)[1]?).map strip := by
  obtain ⟨t, ht, rfl⟩ := h
  obtain ⟨ps, x, h1, h2⟩ := split_trail l t (by intro hc; rcases ht _ hc with h | h <;> exact absurd h (by decide))
  rw [h1, h2]
  match ps with
  | [] => rfl
  | [q] => simp [strip_append_blank (blank_space ht)]
  | q :: r :: ps => rfl

private theorem path_trail {a b : List Str} (h : List.Forall₂ Trailing a b) : processDatapath b = processDatapath a := by
  induction h with
  | nil => rfl
  | @cons l l' _ _ hl _ ih =>
    simp only [processDatapath, strip_trail (lower_trail hl), ih]
    split
    · have := piece_trail (lower_trail hl)
      cases h1 : (splitOn '=' (lower l'))[1]? <;> cases h2 : (splitOn '=' (lower l))[1]? <;> rw [h1, h2] at this <;> simp at this ⊢
      exact this
    · rfl

private theorem awr_trail (flt : Str → Option F) {a b : List Str} (h : List.Forall₂ Trailing a b) : ∀ i d, awrLoop flt i d b = awrLoop flt i d a := by
  induction h with
  | nil => intro _ _; rfl
  | cons hl _ ih =>
    intro i d
    simp only [awrLoop, strip_trail hl, ih]

private theorem dir_trail {a b : List Str} (h : List.Forall₂ Trailing a b) : ∀ i d, dirLoop i d b = dirLoop i d a := by
  induction h with
  | nil => intro _ _; rfl
  | cons hl _ ih =>
    intro i d
    simp only [dirLoop, strip_trail hl, words_trail hl, ih]

private theorem th_trail {a b : List Str} (h : List.Forall₂ Trailing a b) : ∀ i d, thermalLoop i d b = thermalLoop i d a := by
  induction h with
  | nil => intro _ _; rfl
  | cons hl _ ih =>
    intro i d
    simp only [thermalLoop, strip_trail hl, ih]

/-- C278 (part that holds): xsdir files. -/
theorem C278_xsdir_partial (flt : Str → Option F) (path c c' : Str) (h : TrailingText c c') (fs fs' : FS) (hf : fs.node path = some (.file c))
    (hf' : fs'.node path = some (.file c')) : (readXsdir flt path fs').1 = (readXsdir flt path fs).1 := by
  unfold readXsdir
  rw [PyM.bind_ok (getLines_file hf), PyM.bind_ok (getLines_file hf')]
  simp only [bind, PyM.bind, PyM.lift, processAwr, processDirectory, processThermal, path_trail h, awr_trail flt h, dir_trail h, th_trail h]
  cases processDatapath (splitlines (univNL c)) with
  | error e => rfl
  | ok v =>
    cases awrLoop flt false [] (splitlines (univNL c)) <;> rfl

end xsdir

section mesh
open Meshtal
variable {K : Type} [Field K] [LinearOrder K] [IsStrictOrderedRing K] [FloorRing K]

/-- Two lines of a mesh tally file, with their line ends: the second one has blanks at its end; lines with the number of a mesh are the same. -/
def TrailingLine (l l' : Str) : Prop :=
  l = l' ∨ ¬ p!"Mesh Tally Number" <:+: l ∧ ∃ x e t, (e = [] ∨ e = ['\n']) ∧ (∀ c ∈ t, c = ' ' ∨ c = '\t') ∧ l = x ++ e ∧ l' = x ++ t ++ e

private theorem infix_trail {p x s : Str} {c : Char} (hc : isSpace c = false) (hp : p.getLast? = some c) (hs : ∀ c ∈ s, isSpace c = true) :
    p <:+: x ++ s ↔ p <:+: x := by
  refine ⟨?_, fun h => h.trans (List.prefix_append _ _).isInfix⟩
  rintro ⟨u, v, h⟩
  rcases List.append_eq_append_iff.1 h with ⟨w, h1, h2⟩ | ⟨w, h1, h2⟩
  · exact ⟨u, w, h1.symm⟩
  · rcases List.eq_nil_or_concat w with rfl | ⟨w', d, rfl⟩
    · exact ⟨u, [], by simpa using h1⟩
    · exfalso
      have : d = c := by
        have := congrArg List.getLast? h1
        obtain ⟨q, rfl⟩ := List.getLast?_eq_some_iff.1 hp
        rw [List.concat_eq_append, ← List.append_assoc, ← List.append_assoc, List.getLast?_concat, List.getLast?_concat] at this
        exact (Option.some.inj this).symm
      have h3 := hs d (by rw [h2]; simp)
      rw [this, hc] at h3
      cases h3

private theorem sub_trail {p l l' : Str} {c : Char} (hc : isSpace c = false) (hp : p.getLast? = some c) (h : TrailingLine l l') : hasSub p l' = hasSub p l := by
  rcases h with rfl | ⟨_, x, e, t, he, ht, rfl, rfl⟩
  · rfl
  · have he' : ∀ c ∈ e, isSpace c = true := by
      rcases he with rfl | rfl
      · simp
      · decide
    have h1 : p <:+: x ++ e ↔ p <:+: x := infix_trail hc hp he'
    have h2 : p <:+: x ++ t ++ e ↔ p <:+: x := by rw [infix_trail hc hp he', infix_trail hc hp (blank_space ht)]
    cases h3 : hasSub p (x ++ e)
    · rw [hasSub_false_iff] at h3 ⊢; rwa [h2, ← h1]
    · rw [hasSub_iff] at h3 ⊢; rwa [h2, ← h1]

private theorem words_line {l l' : Str} (h : TrailingLine l l') : splitWs l' = splitWs l := by
  rcases h with rfl | ⟨_, x, e, t, he, ht, rfl, rfl⟩
  · rfl
  · have he' : ∀ c ∈ e, isSpace c = true := by
      rcases he with rfl | rfl
      · simp
      · decide
    rw [splitWs_append_blank he', splitWs_append_blank he', splitWs_append_blank (blank_space ht)]

private theorem loop_trail (flt : Str → Option K) (n : Option Int) {a b : List Str} (h : List.Forall₂ TrailingLine a b) : ∀ st,
    readLoop flt n st b = readLoop flt n st a := by
  induction h with
  | nil => intro _; rfl
  | @cons l l' _ _ hl _ ih =>
    intro st
    have e1 : ∀ st : RState K, nextMesh st l' = nextMesh st l := by
      intro st
      unfold nextMesh
      rw [sub_trail (c := 'r') (by decide) (by decide) hl]
    have e2 : ∀ st : RState K, readNumber n st l' = readNumber n st l := by
      intro st
      unfold readNumber
      rw [sub_trail (c := 'r') (by decide) (by decide) hl]
      rcases hl with rfl | ⟨hl, _⟩
      · rfl
      · rw [hasSub_false_iff.2 hl]; rfl
    have e3 : ∀ st : RState K, readLine flt st l' = readLine flt st l := by
      intro st
      have hfl : fields l' = fields l := by unfold fields; rw [words_line hl]
      unfold readLine
      rw [sub_trail (c := ':') (by decide) (by decide) hl, sub_trail (c := ':') (by decide) (by decide) hl, sub_trail (c := ':') (by decide) (by decide) hl,
        sub_trail (c := ':') (by decide) (by decide) hl, sub_trail (c := ':') (by decide) (by decide) hl, sub_trail (c := 't') (by decide) (by decide) hl,
        sub_trail (c := 't') (by decide) (by decide) hl, sub_trail (c := 't') (by decide) (by decide) hl, sub_trail (c := '.') (by decide) (by decide) hl,
        words_line hl, hfl]
    simp only [readLoop, e1, e2, e3, ih]

/-- C278 (part that holds): mesh tally files. Missing: blanks behind the number of a mesh (`C278_mesh_violated`). -/
theorem C278_mesh_partial (flt : Str → Option K) (numeric : Str → Option (Option K)) (n : Option Int) (text text' : Str)
    (h : List.Forall₂ TrailingLine (keepLines text) (keepLines text')) :
    readMeshtallyText flt numeric n text' = readMeshtallyText flt numeric n text := by
  unfold readMeshtallyText
  rw [loop_trail flt n h]

/-- C278 fails for mesh tally files: with a blank behind the number of its first mesh no file is read. -/
theorem C278_mesh_violated (flt : Str → Option K) (numeric : Str → Option (Option K)) (n : Option Int) (text l : Str) (ls : List Str)
    (h : keepLines text = (l ++ p!" \n") :: ls) (hl : p!"Mesh Tally Number" <:+: l) :
    readMeshtallyText flt numeric n text = .error .ValueError := by
  unfold readMeshtallyText
  rw [h]
  have h1 : hasSub p!"Mesh Tally Number" (l ++ p!" \n") = true := hasSub_iff.2 (hl.trans (List.prefix_append _ _).isInfix)
  have h2 : lastInt (l ++ p!" \n") = .error .ValueError := by
    have : splitOn ' ' (l ++ p!" \n") = splitOn ' ' l ++ [p!"\n"] := splitP_append_sep (by decide) l p!"\n"
    unfold lastInt
    rw [this, List.getLast?_concat]
    rfl
  simp only [readLoop, nextMesh, Bool.false_and, Bool.false_eq_true, if_false, readNumber, h1, if_true, h2, ex_err_bind]

example : List.Forall₂ TrailingLine (keepLines p!" Mesh Tally Number 4\n X direction: 0 1\n") (keepLines p!" Mesh Tally Number 4\n X direction: 0 1  \n") :=
  .cons (.inl rfl) (.cons (.inr ⟨hasSub_false_iff.1 (by decide +kernel), p!" X direction: 0 1", p!"\n", p!"  ", .inr rfl, by simp, rfl, rfl⟩) .nil)

example : keepLines p!" Mesh Tally Number 4 \nx" = (p!" Mesh Tally Number 4" ++ p!" \n") :: [p!"x"] ∧ p!"Mesh Tally Number" <:+: p!" Mesh Tally Number 4" :=
  ⟨by decide +kernel, hasSub_iff.1 (by decide +kernel)⟩

end mesh

section output
open McnpOutput

/-- C278 fails for outputs of MCNP: a print table whose line has a blank at its end is not found. -/
theorem C278_tables_violated (lines : List Str) (h : ∀ l ∈ lines, p!"print table" <:+: l → ∃ x, l = x ++ p!" ") (k : Str) (hk : k ≠ []) :
    (getTableDict lines).get k = none := by
  unfold getTableDict
  suffices H : ∀ (n : Nat) (d : Dict Str Nat), d.get k = none → Dict.get ((lines.zipIdx n).foldl (fun (d : Dict Str Nat) e =>
      if hasSub p!"print table" e.1 then
        let key := (splitOn ' ' e.1).getLastD []
        if key = p!"160" ∨ key = p!"161" ∨ key.length > 3 then d else d.set key e.2
      else d) d) k = none from H 0 [] rfl
  induction lines with
  | nil => exact fun _ _ hd => hd
  | cons l lines ih =>
    intro n d hd
    rw [List.zipIdx_cons, List.foldl_cons]
    apply ih (fun l hl => h l (by simp [hl]))
    split
    · rename_i hs
      obtain ⟨x, rfl⟩ := h l (by simp) (hasSub_iff.1 hs)
      have : (splitOn ' ' (x ++ p!" ")).getLastD [] = [] := by
        have : splitOn ' ' (x ++ p!" ") = splitOn ' ' x ++ [[]] := splitP_append_sep (by decide) x []
        rw [this, List.getLastD_concat]
      simp only [this]
      rw [if_neg (by decide), Dict.get_set_ne _ _ hk]
      exact hd
    · exact hd

/-- C278 fails for outputs of MCNP: the flux tally of cells is not read when the blank behind the heading of the volumes was removed. -/
theorem C278_output_violated {F : Type} [LinearOrder F] (flt : Str → Option F) (t : Tally F) (ht : t.tallyType = '4') (lines : List Str)
    (h : ∀ l ∈ lines, p!"           volumes" <+: l → l = p!"           volumes") : readTypeCell flt t lines = .error .ValueError := by
  have : findLine p!"           volumes " lines 19 = .error .ValueError := by
    rw [C03_find_line_error]
    refine ⟨rfl, fun l hl he => ?_⟩
    have h1 : p!"           volumes " <+: l := by rw [← he]; exact List.take_prefix _ _
    have h2 := h l hl (List.IsPrefix.trans ⟨p!" ", rfl⟩ h1)
    rw [h2] at he
    exact absurd he (by decide)
  unfold readTypeCell
  rw [if_pos ht, this]
  rfl

private def cellTally (head : Str) : List Str := [p!"1mcnp x 01/01/20 10:00:00",
  p!"1tally        4        nps =        1000", p!"           tally type 4", p!"           particle(s): neutrons", head,
  p!"     cell:    1   2", p!"   3 4", p!" ", p!" cell  1 ", p!"   10 1", p!" cell  2 ", p!"    20 2", p!" ", p!"1tally fluctuation charts"]

example : List.Forall₂ Trailing (cellTally p!"           volumes") (cellTally p!"           volumes ") ∧
    (readOutputLines pyNat 0 id p!"out" (cellTally p!"           volumes ")).map (fun o => o.tallyData.length) = .ok 1 ∧
    (readOutputLines pyNat 0 id p!"out" (cellTally p!"           volumes")).map (fun o => o.tallyData.length) = .error .ValueError := by
  have r : ∀ l, Trailing l l := fun l => ⟨[], by simp, by simp⟩
  refine ⟨?_, by decide +kernel, by decide +kernel⟩
  unfold cellTally
  refine .cons (r _) (.cons (r _) (.cons (r _) (.cons (r _) (.cons ⟨p!" ", by simp, rfl⟩ ?_))))
  exact List.forall₂_same.2 (fun l _ => r l)

example : (getTableDict [p!"1cells print table 60"]).get p!"60" = some 0 ∧ (getTableDict [p!"1cells print table 60 "]).get p!"60" = none := by decide +kernel

end output
end Props
