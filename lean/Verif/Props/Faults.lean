/-
C274: with which exceptions the readers of files can fail.
-/
import Verif.Model.McnpInput
import Verif.Model.McnpOutput
import Verif.Model.FispactOutput
import Verif.Model.MeshtalAnalysis
import Verif.Model.Readers
import Verif.Model.Misc
import Verif.Model.OutputUtilities
import Verif.Proofs.Except
import Verif.Proofs.PyM
import Verif.Props.McnpInput
import Verif.Props.McnpOutput4

set_option linter.unusedSectionVars false
set_option linter.unusedVariables false

namespace Props
open Py NeutUtilities

/-- Exceptions that report a file that cannot be opened, or contents that are not those of such a file. The others (a missing attribute,
    a variable without value, a wrong type, the end of an iterator, a division by zero) are faults of the program. -/
def Report (e : Err) : Prop :=
  e = .FileNotFoundError ∨ e = .OSError ∨ e = .ValueError ∨ e = .IndexError ∨ e = .KeyError

/-- The program fails, if it fails, with an exception of a kind. -/
def FailsWith {α : Type} (S : Err → Prop) (m : PyM α) (fs : FS) : Prop := ∀ e fs', m fs = (.error e, fs') → S e

/-- The same for a computation without files. -/
private def Only {α : Type} (S : Err → Prop) (x : Except Err α) : Prop := ∀ e, x = .error e → S e

variable {α β : Type} {S : Err → Prop}

private theorem only_ok {a : α} : Only S (.ok a : Except Err α) := fun e h => by cases h
private theorem only_pure {a : α} : Only S (pure a : Except Err α) := fun e h => by cases h
private theorem only_error {e : Err} (h : S e) : Only S (.error e : Except Err α) := fun e' h' => by cases h'; exact h
private theorem only_orErr {e : Err} {o : Option α} (h : S e) : Only S (orErr e o) := by
  cases o
  · exact only_error h
  · exact only_ok
private theorem only_bind {x : Except Err α} {f : α → Except Err β} (hx : Only S x) (hf : ∀ a, Only S (f a)) : Only S (x >>= f) := by
  intro e h
  rcases ex_bind_err.1 h with h | ⟨a, _, h⟩
  · exact hx e h
  · exact hf a e h
private theorem only_bind' {x : Except Err α} {f : α → Except Err β} (hx : Only S x) (hf : ∀ a, x = .ok a → Only S (f a)) :
    Only S (x >>= f) := by
  intro e h
  rcases ex_bind_err.1 h with h | ⟨a, ha, h⟩
  · exact hx e h
  · exact hf a ha e h
private theorem only_map {x : Except Err α} {f : α → β} (hx : Only S x) : Only S (x.map f) := by
  cases x
  · exact only_error (hx _ rfl)
  · exact only_ok
private theorem only_mapM {f : α → Except Err β} (hf : ∀ a, Only S (f a)) (l : List α) : Only S (l.mapM f) := by
  induction l with
  | nil => exact only_pure
  | cons a l ih =>
    rw [List.mapM_cons]
    exact only_bind (hf a) fun _ => only_bind ih fun _ => only_pure
private theorem only_foldlM {f : β → α → Except Err β} (hf : ∀ b a, Only S (f b a)) (l : List α) (b : β) : Only S (l.foldlM f b) := by
  induction l generalizing b with
  | nil => exact only_pure
  | cons a l ih =>
    rw [List.foldlM_cons]
    exact only_bind (hf b a) fun _ => ih _

private theorem ite_only {c : Prop} [Decidable c] {x y : Except Err α} (h : Only S x) (h' : Only S y) : Only S (if c then x else y) := by
  split
  · exact h
  · exact h'

macro "progress_dsimp" : tactic => `(tactic| dsimp (config := { failIfUnchanged := true }) only)

macro "only1" : tactic => `(tactic| with_reducible first
  | assumption | exact only_ok | exact only_pure
  | exact only_error (by assumption) | exact only_orErr (by assumption)
  | refine only_bind ?_ (fun _ => ?_) | refine only_mapM (fun _ => ?_) _ | refine only_foldlM (fun _ _ => ?_) _ _ | refine only_map ?_)

macro "only" : tactic => `(tactic| repeat' (first | only1 | split | progress_dsimp))

macro "onlyWith" hs:(ppSpace colGt ident)* : tactic => do
  let mut alts : Array (Lean.TSyntax `tactic) := #[]
  for h in hs do
    alts := alts.push (← `(tactic| (with_reducible apply $h)))
  `(tactic| repeat' (first | only1 | (first $[| $alts:tactic]*) | split | progress_dsimp))

private theorem only_findLine (hV : S .ValueError) (t : Str) (l : List Str) (n : Nat) : Only S (findLine t l n) := by
  unfold findLine
  generalize 0 = i
  induction l generalizing i with
  | nil => exact only_error hV
  | cons a l ih =>
    unfold findLineFrom
    split
    · exact only_ok
    · exact ih _

private theorem only_findInd (hV : S .ValueError) (t : Str) (l : List Str) : Only S (findInd l t) := by
  unfold findInd
  generalize 0 = i
  induction l generalizing i with
  | nil => exact only_error hV
  | cons a l ih =>
    unfold findIndFrom
    split
    · exact only_ok
    · exact ih _

/-- Reading the lines of a file fails with a report. -/
private theorem fails_lines {β : Type} (hF : S .FileNotFoundError) (hO : S .OSError) (path : Str) (f : List Str → Except Err β)
    (h : ∀ c, Only S (f (splitlines (univNL c)))) (fs : FS) : FailsWith S (getLines path >>= fun l => PyM.lift (f l)) fs := by
  intro e fs' he
  simp only [getLines, readText, bind, PyM.bind, pure, PyM.pure] at he
  cases hn : fs.node path with
  | none => rw [hn] at he; simp at he; exact he.1 ▸ hF
  | some x =>
    cases x with
    | dir => rw [hn] at he; simp at he; exact he.1 ▸ hO
    | file c =>
      rw [hn] at he
      simp [PyM.lift] at he
      exact h c e he.1

section input
open McnpInput
variable {F : Type}

private theorem only_geomPart (hV : S .ValueError) (hI : S .IndexError) (flt : Str → Option F) (st : GeomSt F) (part : Str) :
    Only S (geomPart flt st part) := by
  unfold geomPart processImp; only

private theorem only_finishCell (hV : S .ValueError) (hI : S .IndexError) (flt : Str → Option F) (d : Dict Int (Cell F))
    (cur : Cell F × List Str) : Only S (finishCell flt d cur) := by
  unfold finishCell processGeom geomStep
  have := only_geomPart (S := S) hV hI flt
  onlyWith this

private theorem only_startCell (hV : S .ValueError) (hI : S .IndexError) (flt : Str → Option F) (ws : List Str) :
    Only S (startCell flt ws) := by
  unfold startCell; only

private theorem only_cellStep (hV : S .ValueError) (hI : S .IndexError) (flt : Str → Option F) (st : CellSt F) (l : Str) :
    Only S (cellStep flt st l) := by
  have h1 := only_finishCell (S := S) hV hI flt
  have h2 := only_startCell (S := S) hV hI flt
  unfold cellStep; onlyWith h1 h2

private theorem only_pairs (hV : S .ValueError) (hI : S .IndexError) (flt : Str → Option F) (ws : List Str) (d : Dict Str F) :
    Only S (pairs flt ws d) := by
  fun_induction pairs flt ws d with
  | case1 => exact only_ok
  | case2 => exact only_error hI
  | case3 d k v rest ih => exact only_bind (only_orErr hV) fun x => ih x

private theorem only_material (hV : S .ValueError) (hI : S .IndexError) (flt : Str → Option F) (n : Int) (ls : List Str) :
    Only S (readMaterialLines flt n ls) := by
  have h1 := only_pairs (S := S) hV hI flt
  unfold readMaterialLines processMaterialLine; onlyWith h1

private theorem only_materials (hV : S .ValueError) (hI : S .IndexError) (flt : Str → Option F) (ls : List Str) (ns : List Int)
    (d : Dict Int (Material F)) : Only S (readMaterials flt ls ns d) := by
  induction ns generalizing d with
  | nil => exact only_ok
  | cons n ns ih => exact only_bind (only_material hV hI flt n ls) fun m => ih _

private theorem only_surface (hV : S .ValueError) (hI : S .IndexError) (b : List Str) : Only S (processSurfaceBlock b) := by
  have h : ∀ l, Only S (processSurfaceLine l) := by
    intro l; unfold processSurfaceLine checkSurfTransform; only
  unfold processSurfaceBlock surfStep; onlyWith h


/-- No line before the first blank line starts with a digit. -/
def WithoutCells (lines : List Str) : Prop := ∀ a x r, lines = a ++ x :: r → Spec.Blank x → (∀ l ∈ a, ¬ Spec.Blank l) →
  ∀ l ∈ a, ∀ c ∈ l.head?, isDigit c = false

private theorem cellStep_some (flt : Str → Option F) {st st' : CellSt F} {l : Str} (h : cellStep flt st l = .ok st')
    (hc : st.cur.isSome ∨ ∃ c ∈ l.head?, isDigit c = true) : st'.cur.isSome := by
  unfold cellStep at h
  obtain ⟨c, h1, h⟩ := ex_bind_ok.1 h
  by_cases hd : isDigit c = true
  · rw [if_pos hd] at h
    dsimp only at h
    split at h
    all_goals
      obtain ⟨d, _, h⟩ := ex_bind_ok.1 h
      obtain ⟨d, _, h⟩ := ex_bind_ok.1 h
      cases h; rfl
  · rw [if_neg hd] at h
    have hs : st.cur.isSome := by
      rcases hc with hc | ⟨c', hc', hd'⟩
      · exact hc
      · cases l with
        | nil => simp at hc'
        | cons a l =>
          simp [orErr] at h1 hc'
          subst h1 hc'
          exact absurd hd' hd
    split at h
    · cases hu : st.cur with
      | none => rw [hu] at hs; simp at hs
      | some u => rw [hu] at h; cases h; rfl
    · cases h; exact hs

private theorem fold_some (flt : Str → Option F) {b : List Str} {st st' : CellSt F} (h : b.foldlM (cellStep flt) st = .ok st')
    (hc : st.cur.isSome ∨ ∃ l ∈ b, ∃ c ∈ l.head?, isDigit c = true) : st'.cur.isSome := by
  induction b generalizing st with
  | nil => cases h; simpa using hc
  | cons l b ih =>
    rw [List.foldlM_cons] at h
    obtain ⟨s, h1, h2⟩ := ex_bind_ok.1 h
    refine ih h2 ?_
    rcases hc with hc | ⟨m, hm, hc⟩
    · exact .inl (cellStep_some flt h1 (.inl hc))
    · rcases List.mem_cons.1 hm with rfl | hm
      · exact .inl (cellStep_some flt h1 (.inr hc))
      · exact .inr ⟨m, hm, hc⟩

/-- C274 (part that holds): the reader of MCNP inputs reports what is wrong, except in files without any cell. -/
theorem C274_input_partial (flt : Str → Option F) (path : Str) (fs : FS) (e : Err) (fs' : FS)
    (h : readMcnpInput flt path fs = (.error e, fs')) :
    Report e ∨ (e = .AttributeError ∧ ∃ c, fs.node path = some (.file c) ∧ WithoutCells (splitlines (univNL c))) := by
  simp only [readMcnpInput, getLines, readText, bind, PyM.bind, pure, PyM.pure] at h
  cases hn : fs.node path with
  | none => rw [hn] at h; simp at h; left; left; exact h.1.symm
  | some x =>
    cases x with
    | dir => rw [hn] at h; simp at h; left; right; left; exact h.1.symm
    | file c =>
      rw [hn] at h
      simp [PyM.lift] at h
      replace h := h.1
      suffices Report e ∨ (e = .AttributeError ∧ WithoutCells (splitlines (univNL c))) by simpa using this
      generalize splitlines (univNL c) = lines at h ⊢
      have hV : Report .ValueError := by simp [Report]
      have hI : Report .IndexError := by simp [Report]
      have hK : Report .KeyError := by simp [Report]
      unfold McnpInput.readLines at h
      rcases ex_bind_err.1 h with h | ⟨⟨cb, sb, db⟩, hb, h⟩
      · left
        unfold splitBlocs at h
        exact (show Only Report _ by only) e h
      · dsimp only at h
        rcases ex_bind_err.1 h with h | ⟨cells, hc, h⟩
        · unfold processCellBlock at h
          rcases ex_bind_err.1 h with h | ⟨st, hst, h⟩
          · left
            exact only_foldlM (only_cellStep hV hI flt) _ _ e h
          · split at h
            · rename_i hcur
              right
              cases h
              refine ⟨rfl, ?_⟩
              obtain ⟨e1, e2, ⟨y, s, e3, e4, e5⟩, _⟩ := (C78_blocks _ _ _ _).1 hb
              intro a x r ha hx hax
              have hcb : a = cb := by
                classical
                have := congrArg (List.takeWhile (fun l => decide (¬ Spec.Blank l))) (ha.symm.trans e1)
                rw [e3, List.append_assoc, List.cons_append, List.takeWhile_append_of_pos (by simpa using hax),
                  List.takeWhile_append_of_pos (by simpa using e2)] at this
                simpa [hx, e4] using this
              subst hcb
              intro l hl c hc
              by_contra hd
              have := fold_some flt hst (.inr ⟨l, hl, c, hc, by simpa using hd⟩)
              rw [hcur] at this
              simp at this
            · left
              exact only_finishCell hV hI flt _ _ e h
        · left
          have h1 := only_surface (S := Report) hV hI
          have h2 := only_materials (S := Report) hV hI flt
          unfold getTallyNumbers getMaterialNumbers at h
          exact (show Only Report _ by onlyWith h1 h2) e h

/-- C274 is violated by inputs without cells. -/
theorem C274_input_violated (flt : Str → Option F) (path : Str) (fs : FS) (hf : fs.node path = some (.file p!"title\n\n1 so 5\n\nmode n\n")) :
    readMcnpInput flt path fs = (.error .AttributeError, fs) ∧ ¬ Report .AttributeError := by
  refine ⟨?_, by simp [Report]⟩
  simp only [readMcnpInput, getLines, readText, bind, PyM.bind, pure, PyM.pure, hf, PyM.lift]
  congr 1

end input

section mesh
open Meshtal
variable {K : Type} [Field K] [LinearOrder K] [IsStrictOrderedRing K] [FloorRing K]

private theorem only_readLoop (hV : S .ValueError) (hI : S .IndexError) (flt : Str → Option K) (n : Option Int) (st : RState K) (ls : List Str) :
    Only S (readLoop flt n st ls) := by
  induction ls generalizing st with
  | nil => exact only_ok
  | cons l ls ih =>
    have h1 : ∀ st : RState K, Only S (readNumber n st l) := by
      intro st; unfold readNumber lastInt; only
    have h2 : ∀ st, Only S (readLine flt st l) := by
      have h0 : ∀ b : List (Bnd K), Only S (calcMidPoints flt b) := by
        intro b; unfold calcMidPoints Bnd.toF; only
      intro st
      unfold readLine
      iterate 10
        refine ite_only ?_ ?_
        · first | exact only_ok | (dsimp only; exact only_bind (h0 _) fun _ => only_pure)
      exact only_ok
    unfold readLoop
    split
    · exact only_ok
    · split
      · rename_i h; exact only_error (h1 _ _ h)
      · split
        · rename_i h; exact only_error (h2 _ _ h)
        · exact ih _

private theorem only_mesh (hV : S .ValueError) (hI : S .IndexError) (flt : Str → Option K) (numeric : Str → Option (Option K))
    (n : Option Int) (text : Str) : Only S (readMeshtallyText flt numeric n text) := by
  unfold readMeshtallyText
  split
  · rename_i h; exact only_error (only_readLoop hV hI flt n _ _ _ h)
  · exact only_ok
  · split
    · exact only_ok
    · rename_i h
      refine only_error (only_mapM (fun m => ?_) _ _ h)
      have h1 : ∀ (k : CType) (r : List Str), Only S (toRow numeric k r) := by
        intro k r; unfold toRow toNumeric; only
      unfold convertToDf; onlyWith h1

/-- C274 for mesh tally files: only reports. -/
theorem C274_mesh (flt : Str → Option K) (numeric : Str → Option (Option K)) (path : Str) (n : Option Int) (fs : FS) :
    FailsWith Report (readMeshtallyFile flt numeric path n) fs := by
  intro e fs' he
  simp only [readMeshtallyFile, readText, bind, PyM.bind] at he
  cases hn : fs.node path with
  | none => rw [hn] at he; simp at he; simp [Report, ← he.1]
  | some x =>
    cases x with
    | dir => rw [hn] at he; simp at he; simp [Report, ← he.1]
    | file c =>
      rw [hn] at he
      simp [PyM.lift] at he
      exact only_mesh (by simp [Report]) (by simp [Report]) flt numeric n _ e he.1

end mesh

section fispact
open FispactOutput
variable {K : Type} [Field K] [LinearOrder K] [IsStrictOrderedRing K]

private theorem only_active (hV : S .ValueError) (hI : S .IndexError) (flt : Str → Option K) (ls : List Str) (x : K) :
    Only S (readActiveIf flt ls x) := by
  have h1 : ∀ s l, Only S (findInd l s) := only_findInd hV
  have h2 : ∀ l, Only S (domLow flt l) := by
    intro l
    induction l with
    | nil => exact only_ok
    | cons a l ih => unfold domLow domLowRow fltE; onlyWith ih
  have h3 : ∀ l, Only S (parseDominant flt l) := by
    intro l; unfold parseDominant domTopRow fltE; onlyWith h1 h2
  have h4 : ∀ l, Only S (parseComposition flt l) := by
    intro l; unfold parseComposition fltE; onlyWith h1
  have h5 : ∀ l, Only S (parseSpectra flt l) := by
    intro l; unfold parseSpectra fltE; onlyWith h1
  have h6 : ∀ s, Only S (fld flt s) := by
    intro s; unfold fld fltE; only
  unfold readActiveIf readActive scol; onlyWith h1 h3 h4 h5 h6

private theorem only_step (hV : S .ValueError) (hI : S .IndexError) (flt : Str → Option K) (ls : List Str) (i : Nat) :
    Only S (readTimeStep flt ls i) := by
  have h1 : ∀ s l, Only S (findInd l s) := only_findInd hV
  have h2 := only_active (S := S) hV hI flt
  have h3 : ∀ l i a b, Only S (fcol flt l i a b) := by
    intro l i a b; unfold fcol fltE; only
  have h4 : ∀ s, Only S (fld flt s) := by
    intro s; unfold fld fltE; only
  have h5 : ∀ l, Only S (parseInventory flt l) := by
    intro l; unfold parseInventory invRow fltE; onlyWith h1
  unfold readTimeStep scol; onlyWith h1 h2 h3 h4 h5

/-- C274 (part that holds): the reader of FISPACT outputs reports what is wrong, except in files without the line of the mass and in
    outputs of FISPACT 2007. -/
theorem C274_fispact_partial (flt : Str → Option K) (path : Str) (fs : FS) (e : Err) (fs' : FS)
    (h : readFisOut flt path fs = (.error e, fs')) :
    Report e ∨ ∃ c, fs.node path = some (.file c) ∧
      ((e = .StopIteration ∧ ∀ l ∈ splitlines (univNL c), ¬ p!"0 Mass" <:+: l) ∨
       (e = .TypeError ∧ ∃ l ∈ (splitlines (univNL c)).take 50, p!"FISPACT VERSION 07.0/0" <:+: l)) := by
  have hV : Report .ValueError := by simp [Report]
  have hI : Report .IndexError := by simp [Report]
  unfold readFisOut at h
  cases hn : fs.node path with
  | none => rw [hn] at h; simp at h; simp [Report, ← h.1]
  | some x =>
    cases x with
    | dir => rw [hn] at h; simp at h; simp [Report, ← h.1]
    | file c =>
      rw [hn] at h
      simp only [getLines, readText, bind, PyM.bind, pure, PyM.pure, hn] at h
      simp at h
      replace h := h.1
      suffices Report e ∨ ((e = .StopIteration ∧ ∀ l ∈ splitlines (univNL c), ¬ p!"0 Mass" <:+: l) ∨
        (e = .TypeError ∧ ∃ l ∈ (splitlines (univNL c)).take 50, p!"FISPACT VERSION 07.0/0" <:+: l)) by simpa using this
      generalize splitlines (univNL c) = lines at h ⊢
      unfold FispactOutput.readLines at h
      dsimp only at h
      rcases ex_bind_err.1 h with h | ⟨sd, _, h⟩
      · unfold readSummaryData at h
        dsimp only at h
        rcases ex_bind_err.1 h with h | ⟨⟨s, t⟩, _, h⟩
        · unfold findSummaryBlock at h
          dsimp only at h
          rcases ex_bind_err.1 h with h | ⟨s, _, h⟩
          · left; exact only_orErr hV e h
          · rcases ex_bind_err.1 h with h | ⟨t, _, h⟩
            · right; left
              cases hi : lines.findIdx? (fun l => hasSub p!"0 Mass" l) with
              | none =>
                rw [hi] at h
                cases h
                refine ⟨rfl, fun l hl hs => ?_⟩
                rw [List.findIdx?_eq_none_iff] at hi
                simpa [hasSub_iff.2 hs] using hi l hl
              | some k => rw [hi] at h; cases h
            · cases h
        · dsimp only at h
          split at h
          · left
            unfold sumStep fltE at h
            exact (show Only Report _ by only) e h
          · rename_i hf
            split at h
            · cases h
            · cases h
              right; right
              refine ⟨rfl, ?_⟩
              unfold isFisII checkFispVersion at hf
              split at hf
              · rename_i hs
                obtain ⟨l, hl⟩ := Option.isSome_iff_exists.1 hs
                exact ⟨l, List.mem_of_find?_eq_some hl, hasSub_iff.1 (by simpa using List.find?_some hl)⟩
              · exact absurd (by decide) hf
      · left
        have h1 : ∀ s l, Only Report (findInd l s) := only_findInd hV
        have h2 : ∀ l s, Only Report (readParameter flt l s) := by
          intro l s; unfold readParameter fltE; onlyWith h1
        have h3 : ∀ l, Only Report (readMass flt l) := by
          intro l
          induction l with
          | nil => exact only_ok
          | cons a l ih => unfold readMass fltE; onlyWith ih
        have h4 := only_step (S := Report) hV hI flt
        unfold readSteps at h
        exact (show Only Report _ by onlyWith h2 h3 h4) e h

/-- C274 is violated by outputs of FISPACT-II without the line of the mass. -/
theorem C274_fispact_mass_violated (flt : Str → Option K) (path : Str) (fs : FS)
    (hf : fs.node path = some (.file p!" -----Irradiation Phase-----\n")) :
    readFisOut flt path fs = (.error .StopIteration, fs) ∧ ¬ Report .StopIteration := by
  refine ⟨?_, by simp [Report]⟩
  simp only [readFisOut, getLines, readText, bind, PyM.bind, pure, PyM.pure, hf]
  rfl

/-- C274 is violated by outputs of FISPACT 2007. -/
theorem C274_fispact_version_violated (flt : Str → Option K) (path : Str) (fs : FS)
    (hf : fs.node path = some (.file p!"FISPACT VERSION 07.0/0\n  COOLING STEPS\nx\n0 Mass\n")) :
    readFisOut flt path fs = (.error .TypeError, fs) ∧ ¬ Report .TypeError := by
  refine ⟨?_, by simp [Report]⟩
  simp only [readFisOut, getLines, readText, bind, PyM.bind, pure, PyM.pure, hf]
  rfl

end fispact

section small
variable {F : Type}

/-- C274 for directories of cross sections: only reports. -/
theorem C274_xsdir (flt : Str → Option F) (path : Str) (fs : FS) : FailsWith Report (Xsdir.readXsdir flt path) fs := by
  have hV : Report .ValueError := by simp [Report]
  have hI : Report .IndexError := by simp [Report]
  have h1 : ∀ l, Only Report (Xsdir.processDatapath l) := by
    intro l
    induction l with
    | nil => exact only_ok
    | cons a l ih => unfold Xsdir.processDatapath; onlyWith ih
  have h2 : ∀ l, Only Report (Xsdir.processAwr flt l) := by
    intro l
    unfold Xsdir.processAwr
    generalize false = b
    generalize ([] : Dict Str F) = d
    induction l generalizing b d with
    | nil => exact only_ok
    | cons a l ih => unfold Xsdir.awrLoop; onlyWith ih
  intro e fs' he
  refine fails_lines (S := Report) (by simp [Report]) (by simp [Report]) path
    (fun lines => do
      let dp ← Xsdir.processDatapath lines
      let awr ← Xsdir.processAwr flt lines
      pure (⟨path, dp, awr, Xsdir.processDirectory lines, Xsdir.processThermal lines⟩ : Xsdir.XSDir F))
    (fun c => by onlyWith h1 h2) fs e fs' ?_
  rw [← he]
  simp only [Xsdir.readXsdir, bind, PyM.bind, getLines, readText, pure, PyM.pure, PyM.lift]
  cases fs.node path with
  | none => rfl
  | some x =>
    cases x with
    | dir => rfl
    | file c =>
      dsimp only
      cases Xsdir.processDatapath (splitlines (univNL c)) with
      | error => rfl
      | ok a =>
        dsimp only [Except.bind]
        cases Xsdir.processAwr flt (splitlines (univNL c)) <;> rfl

/-- C274 for the plots of the progress of a run: only reports. -/
theorem C274_plot {T : Type} (flt : Str → Option F) (date : Str → Option T) (path : Str) (fs : FS) :
    FailsWith Report (RunPlot.plotNpsStats flt date path) fs := by
  have hV : Report .ValueError := by simp [Report]
  refine fails_lines (by simp [Report]) (by simp [Report]) path _ (fun c => ?_) fs
  unfold RunPlot.figure RunPlot.step RunPlot.ctmLine RunPlot.dumpLine RunPlot.rendezvousLine RunPlot.plot
  only

/-- C274 for inputs of FISPACT: only reports. -/
theorem C274_fispact_input (path : Str) (fs : FS) : FailsWith Report (FispactInput.readFispactInput path) fs := by
  intro e fs' h
  unfold FispactInput.readFispactInput at h
  split at h
  · cases h; simp [Report]
  · cases h; simp [Report]
  · split at h <;> cases h
    simp [Report]

private theorem fails_bind {m : PyM α} {f : α → PyM β} {fs : FS} (hm : FailsWith S m fs) (hf : ∀ a fs', FailsWith S (f a) fs') :
    FailsWith S (m >>= f) fs := by
  intro e fs' h
  rw [PyM.bind_run] at h
  split at h
  · exact hf _ _ e fs' h
  · rename_i hx
    cases h
    exact hm _ _ hx

private theorem fails_lift {x : Except Err α} (h : Only S x) (fs : FS) : FailsWith S (PyM.lift x) fs := by
  intro e fs' he
  cases he
  exact h e rfl

private theorem fails_read (hF : S .FileNotFoundError) (hO : S .OSError) (path : Str) (fs : FS) : FailsWith S (readText path) fs := by
  intro e fs' he
  unfold readText at he
  split at he <;> cases he
  · exact hO
  · exact hF

private theorem fails_write (hO : S .OSError) (path text : Str) (fs : FS) : FailsWith S (writeText path text) fs := by
  intro e fs' he
  unfold writeText at he
  split at he <;> cases he
  exact hO

private theorem fails_pure {a : α} (fs : FS) : FailsWith S (pure a : PyM α) fs := by
  intro e fs' he; cases he

/-- C274 for the shortening of outputs: only reports. -/
theorem C274_reduce (infile ofile : Str) (fs : FS) : FailsWith Report (OfileReduce.reduceOfile infile ofile) fs := by
  have hV : Report .ValueError := by simp [Report]
  have hO : Report .OSError := by simp [Report]
  have hF : Report .FileNotFoundError := by simp [Report]
  unfold OfileReduce.reduceOfile
  exact fails_bind (fails_bind (fails_read hF hO _ _) fun _ fs => fails_pure fs)
    fun _ fs => fails_bind (fails_lift (only_findLine hV _ _ _) fs) fun _ fs => fails_write hO _ _ fs

/-- C274 for the points where particles were lost: only reports. -/
theorem C274_lost (flt : Str → Option F) (str : F → Str) (path outpath : Str) (fs : FS) :
    FailsWith Report (LostPoints.outputLostPoints flt str path outpath) fs := by
  have hV : Report .ValueError := by simp [Report]
  have hO : Report .OSError := by simp [Report]
  have hF : Report .FileNotFoundError := by simp [Report]
  have h1 : ∀ l, Only Report (LostPoints.scan flt l) := by
    intro l
    induction l with
    | nil => exact only_ok
    | cons a l ih =>
      unfold LostPoints.scan
      split
      · split
        · split
          · exact only_ok
          · rename_i h; exact only_error (ih _ h)
        · exact only_error hV
      · exact ih
  unfold LostPoints.outputLostPoints
  refine fails_bind (fails_read hF hO _ _) fun _ fs => fails_bind (fails_lift (h1 _) fs) fun pts fs => ?_
  split
  · refine fails_bind ?_ fun _ fs => fails_pure fs
    unfold OutputUtilities.outputPoints
    simp only [List.length_map, ne_eq, not_true_eq_false, or_self, if_false]
    exact fails_write hO _ _ fs
  · exact fails_pure fs

/-- Files with wrong contents: a directory of cross sections without `=`, and an output that never ended. -/
example (fs : FS) : ∃ path fs' e, Xsdir.readXsdir pyNat path fs' = (.error e, fs') ∧ Report e :=
  ⟨p!"xsdir", fs.put p!"xsdir" (.file p!"datapath\n"), .IndexError, by
    simp only [Xsdir.readXsdir, getLines, readText, bind, PyM.bind, pure, PyM.pure, FS.put, PyM.lift, if_true]; congr 1, by simp [Report]⟩
example (fs : FS) : ∃ path fs' e, OfileReduce.reduceOfile path p!"short" fs' = (.error e, fs') ∧ Report e :=
  ⟨p!"out", fs.put p!"out" (.file p!"1mcnp\n"), .ValueError, by
    simp only [OfileReduce.reduceOfile, getLines, readText, bind, PyM.bind, pure, PyM.pure, FS.put, PyM.lift, if_true]; congr 1, by simp [Report]⟩

/-- C274 (part that holds): the reader of emission lines reports what is wrong, except in files without the line of the run time. -/
theorem C274_printlib_partial (flt : Str → Option F) (path : Str) (fs : FS) (e : Err) (fs' : FS)
    (h : Printlib.read flt path fs = (.error e, fs')) :
    Report e ∨ (e = .UnboundLocalError ∧ ∃ c, fs.node path = some (.file c) ∧ ∀ l ∈ keepLines (univNL c), ¬ p!"fispact run time" <:+: l) := by
  have key : ∀ (ls : List Str) (s : Printlib.State F), Printlib.scan flt s ls = .ok none → ∀ l ∈ ls, ¬ p!"fispact run time" <:+: l := by
    intro ls
    induction ls with
    | nil => simp
    | cons a ls ih =>
      intro s hs
      unfold Printlib.scan at hs
      split at hs
      · cases hs
      · rename_i ha
        have ha : ¬ p!"fispact run time" <:+: a := fun h => ha (hasSub_iff.2 h)
        suffices ∀ l ∈ ls, ¬ p!"fispact run time" <:+: l by
          intro l hl
          rcases List.mem_cons.1 hl with rfl | hl
          · exact ha
          · exact this l hl
        split at hs
        · split at hs
          · exact ih _ hs
          · cases hs
        · split at hs
          · exact ih _ hs
          · split at hs
            · exact ih _ hs
            · split at hs <;> exact ih _ hs
  unfold Printlib.read at h
  split at h
  · cases h; left; simp [Report]
  · cases h; left; simp [Report]
  · rename_i c hc
    split at h
    · cases h; left; simp [Report]
    · rename_i hs
      cases h
      exact .inr ⟨rfl, c, hc, key _ _ hs⟩
    · cases h

/-- C274 (part that holds): the reader of PTRAC files reports what is wrong, except where the second line of an event stands before the
    first line of any event, or before any history. -/
theorem C274_ptrac_partial (flt : Str → Option F) (path : Str) (fs : FS) (e : Err) (fs' : FS)
    (h : Ptrac.readPtrac flt path fs = (.error e, fs')) :
    Report e ∨ ∃ c a x r, fs.node path = some (.file c) ∧ (splitlines (univNL c)).drop 9 = a ++ x :: r ∧ (stringCleanAndSplit x).length = 9 ∧
      ((e = .TypeError ∧ ∀ l ∈ a, (stringCleanAndSplit l).length = 2 ∨ (stringCleanAndSplit l).length = 3) ∨
       (e = .AttributeError ∧ ∀ l ∈ a, (stringCleanAndSplit l).length ≠ 2 ∧ (stringCleanAndSplit l).length ≠ 3)) := by
  have hV : Report .ValueError := by simp [Report]
  have hI : Report .IndexError := by simp [Report]
  have h1 : ∀ l, Only Report (Ptrac.processEvent flt l) := by
    intro l; unfold Ptrac.processEvent; only
  have key : ∀ (ls : List Str) (hs : List (Option (Ptrac.History F))) cur temp, Ptrac.tracksLoop flt hs cur temp ls = .error e →
      Report e ∨ ∃ a x r, ls = a ++ x :: r ∧ (stringCleanAndSplit x).length = 9 ∧
      ((e = .TypeError ∧ temp = none ∧ ∀ l ∈ a, (stringCleanAndSplit l).length = 2 ∨ (stringCleanAndSplit l).length = 3) ∨
       (e = .AttributeError ∧ cur = none ∧ ∀ l ∈ a, (stringCleanAndSplit l).length ≠ 2 ∧ (stringCleanAndSplit l).length ≠ 3)) := by
    intro ls
    induction ls with
    | nil => intro hs cur temp h; cases h
    | cons l ls ih =>
      intro hs cur temp h
      unfold Ptrac.tracksLoop at h
      dsimp only at h
      split at h
      · rename_i h23
        split at h
        · cases h; exact .inl hV
        · rcases ih _ _ _ h with h | ⟨a, x, r, rfl, hx, ⟨he, ht, ha⟩ | ⟨_, hc, _⟩⟩
          · exact .inl h
          · exact .inr ⟨l :: a, x, r, rfl, hx, .inl ⟨he, ht, by simpa using ⟨h23, ha⟩⟩⟩
          · cases hc
      · rename_i h23
        split at h
        · rename_i h9
          split at h
          · cases h
            exact .inr ⟨[], l, ls, rfl, h9, .inl ⟨rfl, rfl, by simp⟩⟩
          · split at h
            · rename_i hp
              cases h; exact .inl (h1 _ _ hp)
            · split at h
              · cases h
                exact .inr ⟨[], l, ls, rfl, h9, .inr ⟨rfl, rfl, by simp⟩⟩
              · rcases ih _ _ _ h with h | ⟨a, x, r, rfl, hx, ⟨he, ht, ha⟩ | ⟨_, hc, _⟩⟩
                · exact .inl h
                · cases ht
                · cases hc
        · rcases ih _ _ _ h with h | ⟨a, x, r, rfl, hx, ⟨he, ht, ha⟩ | ⟨he, hc, ha⟩⟩
          · exact .inl h
          · cases ht
          · exact .inr ⟨l :: a, x, r, rfl, hx, .inr ⟨he, hc, by
              intro m hm
              rcases List.mem_cons.1 hm with rfl | hm
              · simpa using h23
              · exact ha m hm⟩⟩
  simp only [Ptrac.readPtrac, Ptrac.processTracks, Ptrac.removeHeader, getLines, readText, bind, PyM.bind, pure, PyM.pure] at h
  cases hn : fs.node path with
  | none => rw [hn] at h; simp at h; simp [Report, ← h.1]
  | some x =>
    cases x with
    | dir => rw [hn] at h; simp at h; simp [Report, ← h.1]
    | file c =>
      rw [hn] at h
      simp only [PyM.lift, Prod.mk.injEq] at h
      rcases key _ _ _ _ h.1 with h | ⟨a, x, r, hl, hx, h | h⟩
      · exact .inl h
      · exact .inr ⟨c, a, x, r, rfl, hl, hx, .inl ⟨h.1, h.2.2⟩⟩
      · exact .inr ⟨c, a, x, r, rfl, hl, hx, .inr ⟨h.1, h.2.2⟩⟩

/-- C274 is violated by an empty file read as a list of emission lines. -/
theorem C274_printlib_violated (flt : Str → Option F) (path : Str) (fs : FS) (hf : fs.node path = some (.file [])) :
    Printlib.read flt path fs = (.error .UnboundLocalError, fs) ∧ ¬ Report .UnboundLocalError := by
  refine ⟨?_, by simp [Report]⟩
  simp only [Printlib.read, hf]
  rfl

/-- C274 is violated by PTRAC files with the second line of an event at the start. -/
theorem C274_ptrac_violated (flt : Str → Option F) (path : Str) (fs : FS)
    (hf : fs.node path = some (.file p!"\n\n\n\n\n\n\n\n\n1 2 3 4 5 6 7 8 9\n")) :
    Ptrac.readPtrac flt path fs = (.error .TypeError, fs) ∧ ¬ Report .TypeError := by
  refine ⟨?_, by simp [Report]⟩
  simp only [Ptrac.readPtrac, getLines, readText, bind, PyM.bind, pure, PyM.pure, hf, PyM.lift]
  congr 1

/-- C274 is violated by PTRAC files with an event before the first history. -/
theorem C274_ptrac_history_violated (x : F) (path : Str) (fs : FS)
    (hf : fs.node path = some (.file p!"\n\n\n\n\n\n\n\n\n1 2 3 4 5 6\n1 2 3 4 5 6 7 8 9\n")) :
    Ptrac.readPtrac (fun _ => some x) path fs = (.error .AttributeError, fs) ∧ ¬ Report .AttributeError := by
  refine ⟨?_, by simp [Report]⟩
  simp only [Ptrac.readPtrac, getLines, readText, bind, PyM.bind, pure, PyM.pure, hf, PyM.lift]
  congr 1

end small

section output
open McnpOutput
variable {F : Type}

/-- Reports, a missing attribute and the end of an iterator. -/
private def Out (e : Err) : Prop := Report e ∨ e = .StopIteration ∨ e = .AttributeError

private theorem only_et [LinearOrder F] (hV : S .ValueError) (flt : Str → Option F) (ls : List Str) : Only S (processEtUserbin flt ls) := by
  have h1 : ∀ st l, Only S (etStep flt st l) := by
    intro st l; unfold etStep npRows pyFloat; only
  have h2 : ∀ l : List (List (List F)), Only S (hstack l) := by
    intro l; unfold hstack; only
  unfold processEtUserbin; onlyWith h1 h2

private theorem only_time (hV : S .ValueError) (flt : Str → Option F) (ls : List Str) : Only S (processTimeBinOnly flt ls) := by
  unfold processTimeBinOnly timeStep pyFloat; only

private theorem only_eng (hV : S .ValueError) (flt : Str → Option F) (st : EngSt F) (n : Nat) (l : Str) : Only S (engLine flt st n l) := by
  unfold engLine pyFloat; only

private theorem only_append (hA : S .AttributeError) (r : Res F) (x : Item F) : Only S (r.append x) := by
  unfold Res.append; only

private theorem only_energy (hV : S .ValueError) (hI : S .IndexError) (flt : Str → Option F) (l : Str) : Only S (energyLine flt l) := by
  unfold energyLine pyFloat; only

private theorem only_table (hT : S .StopIteration) (t : Tally F) (r : Dict Nat (List (F × F × F)) × Dict Nat (F × F)) : Only S (withTable t r) := by
  unfold withTable; only

private theorem surfEt_some [LinearOrder F] (flt : Str → Option F) (ls : List Str) (n : Nat) (i : Int) (lab : Option (List F × List F))
    (rs es : List (Item F)) {r : Option (List F × List F) × List (Item F) × List (Item F)} (h : surfEtLoop flt ls n i lab rs es = .ok r)
    (hn : 0 < n ∨ lab.isSome) : r.1.isSome := by
  induction n generalizing i lab rs es with
  | zero => cases h; simpa using hn
  | succ n ih =>
    unfold surfEtLoop at h
    obtain ⟨q, _, h⟩ := ex_bind_ok.1 h
    exact ih _ _ _ _ h (.inr rfl)

private theorem only_surface_tally [LinearOrder F] (hV : S .ValueError) (hI : S .IndexError) (hT : S .StopIteration) (flt : Str → Option F) (m : F)
    (enum : List Str → List Str) (t : Tally F) (ls : List Str) : Only S (readTypeSurface flt m enum t ls) := by
  have h1 : ∀ s l n, Only S (findLine s l n) := only_findLine hV
  have h2 : ∀ s l, Only S (findInd l s) := only_findInd hV
  have h3 := only_et (S := S) hV flt
  have h4 := only_time (S := S) hV flt
  have h5 : ∀ l, Only S (processEnergyBinnedSurfaceTally flt l) := by
    have h := only_eng (S := S) hV flt
    intro l; unfold processEnergyBinnedSurfaceTally surfEngStep; onlyWith h
  have h6 := only_table (F := F) (S := S) hT
  have h7 : ∀ t l f, Only S (processEnergyAngleTally flt m t l f) := by
    have h := only_energy (S := S) hV hI flt
    intro t l f; unfold processEnergyAngleTally angStep processAngString pyFloat; onlyWith h
  have h8 : ∀ l n i lab rs es, Only S (surfEtLoop flt l n i lab rs es) := by
    intro l n
    induction n with
    | zero => intro i lab rs es; exact only_ok
    | succ n ih => intro i lab rs es; unfold surfEtLoop; onlyWith h3 ih
  have h9 : ∀ l n i ts rs es, Only S (surfTimeLoop flt l n i ts rs es) := by
    intro l n
    induction n with
    | zero => intro i lab rs es; exact only_ok
    | succ n ih => intro i lab rs es; unfold surfTimeLoop; onlyWith h2 h4 ih
  have h10 : ∀ l n i rs es, Only S (surfValueLoop flt l n i rs es) := by
    intro l n
    induction n with
    | zero => intro i rs es; exact only_ok
    | succ n ih => intro i rs es; unfold surfValueLoop at' pyFloat; onlyWith h1 ih
  have h11 : ∀ t l f, Only S (surfTimes flt t l f) := by
    intro t l f
    unfold surfTimes at'
    refine only_bind (h1 _ _ _) fun e => only_bind (only_orErr hI) fun l2 => ite_only ?_ (ite_only ?_ ?_)
    · split
      · rename_i hn
        refine only_bind' (h8 _ _ _ _ _ _) fun r hr => ?_
        obtain ⟨lab, hl⟩ := Option.isSome_iff_exists.1 (surfEt_some flt _ _ _ _ _ _ hr (.inl (by omega)))
        rw [hl]
        exact only_pure
      · onlyWith h3
    · onlyWith h9
    · onlyWith h2 h4
  have h12 : Only S (getType2SurfaceAreas ls) := by unfold getType2SurfaceAreas at'; onlyWith h1
  have h13 : Only S (getType2SurfaceNumbers ls) := by unfold getType2SurfaceNumbers at'; onlyWith h1
  unfold readTypeSurface at' pyFloat
  onlyWith h1 h5 h6 h7 h10 h11 h12 h13

private theorem only_cell_tally [LinearOrder F] (hV : S .ValueError) (hI : S .IndexError) (hT : S .StopIteration) (hA : S .AttributeError)
    (flt : Str → Option F) (t : Tally F) (ls : List Str) : Only S (readTypeCell flt t ls) := by
  have h1 : ∀ s l n, Only S (findLine s l n) := only_findLine hV
  have h2 : ∀ s l, Only S (findInd l s) := only_findInd hV
  have h3 := only_et (S := S) hV flt
  have h4 := only_time (S := S) hV flt
  have h5 := only_append (F := F) (S := S) hA
  have h6 := only_table (F := F) (S := S) hT
  have h7 : ∀ b st c, Only S (cellTallyStep flt b st c) := by
    intro b st c; unfold cellTallyStep at' pyFloat; onlyWith h1 h2 h3 h4 h5
  have h8 : ∀ l, Only S (readEnergyBinOnlyCellTally flt l) := by
    have h := only_eng (S := S) hV flt
    intro l; unfold readEnergyBinOnlyCellTally cellEngStep; onlyWith h
  have h9 : ∀ l k c v, Only S (cellDataLoop l k c v) := by
    intro l
    induction l with
    | nil => intro k c v; exact only_error hI
    | cons a l ih => intro k c v; unfold cellDataLoop; onlyWith ih
  unfold readTypeCell getCellData at'
  onlyWith h1 h2 h6 h7 h8 h9

private theorem only_detector [LinearOrder F] (hV : S .ValueError) (hI : S .IndexError) (hA : S .AttributeError)
    (flt : Str → Option F) (t : Tally F) (ls : List Str) : Only S (readType5 flt t ls) := by
  have h1 : ∀ s l n, Only S (findLine s l n) := only_findLine hV
  have h2 : ∀ s l, Only S (findInd l s) := only_findInd hV
  have h3 := only_et (S := S) hV flt
  have h4 := only_energy (S := S) hV hI flt
  have h5 := only_append (F := F) (S := S) hA
  have h6 : ∀ b l t, Only S (userBlocks flt b l t) := by
    intro b l t
    fun_induction userBlocks flt b l t with
    | case1 t a b ls ih => onlyWith h3 h5 ih
    | case2 => exact only_ok
  have h7 : ∀ l i c, Only S (lastNumber flt l i c) := by
    intro l i c; unfold lastNumber at' pyFloat; only
  unfold readType5 type5Position type5Result type5General processEnergyLines at' pyFloat
  onlyWith h1 h2 h3 h4 h5 h6 h7

private theorem only_tally [LinearOrder F] (hV : S .ValueError) (hI : S .IndexError) (hT : S .StopIteration) (hA : S .AttributeError)
    (flt : Str → Option F) (m : F) (enum : List Str → List Str) (ls : List Str) (s : Str) : Only S (readTally flt m enum ls s) := by
  have h1 : ∀ s l n, Only S (findLine s l n) := only_findLine hV
  have h2 := only_cell_tally (S := S) hV hI hT hA flt
  have h3 := only_detector (S := S) hV hI hA flt
  have h4 := only_surface_tally (S := S) hV hI hT flt m enum
  have h5 : ∀ t l, Only S (readType8 flt t l) := by
    have h := only_energy (S := S) hV hI flt
    have h' := only_append (F := F) (S := S) hA
    intro t l; unfold readType8 processEnergyLines at' pyFloat; onlyWith h1 h h'
  unfold readTally readTallyIn readByType at'
  onlyWith h1 h2 h3 h4 h5

/-- C274 (part that holds): the reader of MCNP outputs reports what is wrong, or fails with the end of an iterator or a missing attribute;
    no variable is ever without value. -/
theorem C274_output_partial [LinearOrder F] (flt : Str → Option F) (m : F) (enum : List Str → List Str) (path : Str) (fs : FS) :
    FailsWith (fun e => Report e ∨ e = .StopIteration ∨ e = .AttributeError) (readOutputFile flt m enum path) fs := by
  have hV : Out .ValueError := by simp [Out, Report]
  have hI : Out .IndexError := by simp [Out, Report]
  have h1 : ∀ s l n, Only Out (findLine s l n) := only_findLine hV
  have h2 := only_tally (S := Out) hV hI (by simp [Out]) (by simp [Out]) flt m enum
  refine fails_lines (S := Out) (by simp [Out, Report]) (by simp [Out, Report]) path _ (fun c => ?_) fs
  unfold readOutputLines readRunDate getTallyNums readTableIf readTable60 readTable101 frame at'
  onlyWith h1 h2

/-- An output with one cell tally; the result sections of its cells are given. -/
private def outText (cells rest : Str) : Str :=
  p!"1mcnp 1 2\n1tally        4        nps =         100\n           tally type 4    track length\n           particle(s): neutrons\n           volumes \n   cell: " ++
    cells ++ p!"\n   1.0\n \n" ++ rest ++ p!"\n\n1tally fluctuation charts\n"

/-- C274 is violated by a cell tally whose table of energies is empty. -/
theorem C274_output_empty_violated [LinearOrder F] (flt : Str → Option F) (m : F) (path : Str) (fs : FS)
    (hf : fs.node path = some (.file (outText p!" 2" p!" cell  2 \n      energy   "))) :
    readOutputFile flt m id path fs = (.error .StopIteration, fs) ∧ ¬ Report .StopIteration := by
  refine ⟨?_, by simp [Report]⟩
  simp only [readOutputFile, getLines, readText, bind, PyM.bind, pure, PyM.pure, hf, PyM.lift]
  congr 1

/-- C274 is violated by a cell tally with energies in one cell and times in another one. -/
theorem C274_output_time_violated (path : Str) (fs : FS)
    (hf : fs.node path = some (.file (outText p!" 2 3" p!" cell  2 \n      energy   \n 1.0 2.0 3.0\n cell  3 \n time 1\n 1.0 2.0\n total 1\n 2.0 3.0\n ==="))) :
    readOutputFile (fun _ => some (0 : ℤ)) 0 id path fs = (.error .AttributeError, fs) ∧ ¬ Report .AttributeError := by
  refine ⟨?_, by simp [Report]⟩
  simp only [readOutputFile, getLines, readText, bind, PyM.bind, pure, PyM.pure, hf, PyM.lift]
  congr 1

end output
end Props
