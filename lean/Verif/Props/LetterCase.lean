/-
C247: upper and lower case letters of an MCNP input.
-/
import Verif.Proofs.McnpInput

namespace Props
open Py NeutUtilities McnpInput
variable {F : Type}

/-- Two texts that differ in upper and lower case letters only. -/
def SameButCase (a b : List Str) : Prop := a.map lower = b.map lower

/-! ### Characters and numbers -/

private theorem toLower_underscore {c : Char} : c.toLower = '_' ↔ c = '_' := by
  rw [← Char.toNat_inj, ← Char.toNat_inj, toNat_toLower]
  have : ('_' : Char).toNat = 95 := rfl
  split <;> omega

private theorem natDigits_lower (s : Str) : ∀ acc, natDigits acc (lower s) = natDigits acc s := by
  have key : ∀ n, ∀ s : Str, s.length ≤ n → ∀ acc, natDigits acc (lower s) = natDigits acc s := by
    intro n
    induction n with
    | zero =>
      intro s hs acc
      obtain rfl : s = [] := List.length_eq_zero_iff.1 (by omega)
      rfl
    | succ n ih =>
      intro s hs acc
      have step : ∀ (c : Char) (cs : Str) (acc : Nat), cs.length ≤ n →
          (if c.toLower.isDigit then natDigits (acc * 10 + (c.toLower.toNat - 48)) (lower cs) else none) =
          (if c.isDigit then natDigits (acc * 10 + (c.toNat - 48)) cs else none) := by
        intro c cs acc hcs
        rw [isDigit_toLower]
        cases h : c.isDigit with
        | false => rfl
        | true => rw [digit_toLower_self h]; exact ih cs hcs _
      match s with
      | [] => rfl
      | c :: cs =>
        simp only [List.length_cons] at hs
        by_cases hc : c = '_'
        · subst hc
          match cs with
          | [] => rfl
          | d :: ds =>
            simp only [List.length_cons] at hs
            exact step d ds acc (by omega)
        · have hc' : c.toLower ≠ '_' := fun h => hc (toLower_underscore.1 h)
          have e1 : natDigits acc (c :: cs) = if c.isDigit then natDigits (acc * 10 + (c.toNat - 48)) cs else none := by
            rw [natDigits]; intro c' cs' h; exact fun _ => hc h
          have e2 : natDigits acc (lower (c :: cs)) =
              if c.toLower.isDigit then natDigits (acc * 10 + (c.toLower.toNat - 48)) (lower cs) else none := by
            show natDigits acc (c.toLower :: lower cs) = _
            rw [natDigits]; intro c' cs' h; exact fun _ => hc' h
          rw [e1, e2]
          exact step c cs acc (by omega)
  exact key s.length s le_rfl

private theorem pyNat_lower (s : Str) : pyNat (lower s) = pyNat s := by
  match s with
  | [] => rfl
  | c :: cs =>
    show (if c.toLower.isDigit then natDigits (c.toLower.toNat - 48) (lower cs) else none) = _
    rw [isDigit_toLower, pyNat]
    cases h : c.isDigit with
    | false => rfl
    | true => rw [digit_toLower_self h, natDigits_lower]

private theorem dropWhile_lower {p : Char → Bool} (hp : ∀ c : Char, p c.toLower = p c) (s : Str) :
    (lower s).dropWhile p = lower (s.dropWhile p) := by
  unfold lower
  rw [List.dropWhile_map]
  congr 2
  funext c
  exact hp c

private theorem rdropWhile_lower {p : Char → Bool} (hp : ∀ c : Char, p c.toLower = p c) (s : Str) :
    (lower s).rdropWhile p = lower (s.rdropWhile p) := by
  have h := dropWhile_lower hp s.reverse
  unfold List.rdropWhile
  have e : (lower s).reverse = lower s.reverse := by simp [lower]
  rw [e, h]
  simp [lower]

private theorem strip_lower (s : Str) : strip (lower s) = lower (strip s) := by
  unfold strip lstrip rstrip
  rw [dropWhile_lower isSpace_toLower, rdropWhile_lower isSpace_toLower]

theorem pyInt_lower (s : Str) : pyInt (lower s) = pyInt s := by
  unfold pyInt
  rw [strip_lower]
  generalize strip s = t
  match t with
  | [] => rfl
  | c :: cs =>
    by_cases h1 : c = '-'
    · subst h1
      rw [show lower ('-' :: cs) = '-' :: lower cs from rfl]
      simp only [pyNat_lower]
    · by_cases h2 : c = '+'
      · subst h2
        rw [show lower ('+' :: cs) = '+' :: lower cs from rfl]
        simp only [pyNat_lower]
      · have h1' : c.toLower ≠ '-' := fun h => h1 ((toLower_eq_low (by decide)).1 h)
        have h2' : c.toLower ≠ '+' := fun h => h2 ((toLower_eq_low (by decide)).1 h)
        have e : pyNat (c.toLower :: lower cs) = pyNat (c :: cs) := pyNat_lower (c :: cs)
        rw [show lower (c :: cs) = c.toLower :: lower cs from rfl]
        split
        · rename_i h; simp only [List.cons.injEq] at h; exact absurd h.1 h1'
        · rename_i h; simp only [List.cons.injEq] at h; exact absurd h.1 h2'
        · split
          · rename_i h; simp only [List.cons.injEq] at h; exact absurd h.1 h1
          · rename_i h; simp only [List.cons.injEq] at h; exact absurd h.1 h2
          · rw [e]

private theorem join_lower (sep : Str) (ls : List Str) : join (lower sep) (ls.map lower) = lower (join sep ls) := by
  induction ls with
  | nil => rfl
  | cons x xs ih =>
    cases xs with
    | nil => rfl
    | cons y ys =>
      simp only [List.map_cons, join] at ih ⊢
      rw [ih]
      simp [lower]

private theorem cleaner_lower (s : Str) : stringCleaner (lower s) = lower (stringCleaner s) := by
  unfold stringCleaner
  rw [strip_lower, splitWs_lower]
  exact join_lower [' '] _

private theorem headD_lower (ls : List Str) : (ls.map lower).headD [] = lower (ls.headD []) := by
  cases ls <;> rfl

private theorem drop_lower (s : Str) (n : Nat) : (lower s).drop n = lower (s.drop n) := by
  simp [lower, List.map_drop]

/-! ### The data block -/

private theorem scan_lower (start : Str → Bool) (lines : List Str) :
    ∀ b, scan start b (lines.map lower) = scan start b lines := by
  induction lines with
  | nil => intro b; rfl
  | cons l ls ih =>
    intro b
    cases b with
    | false => simp only [List.map_cons, scan, lower_lower, ih]
    | true => simp only [List.map_cons, scan, lower_lower, ih]

private theorem card_lower (card : Str) (lines : List Str) : getCardLines (lines.map lower) card = getCardLines lines card :=
  scan_lower _ lines _

private theorem present_lower (card : Str) (lines : List Str) : isCardPresent (lines.map lower) card = isCardPresent lines card := by
  unfold isCardPresent
  rw [List.any_map]
  congr 1
  funext l
  simp only [Function.comp_apply, lower_lower]

private theorem mode_lower (lines : List Str) : readModeCard (lines.map lower) = readModeCard lines := by
  unfold readModeCard
  rw [card_lower]

private theorem material_lower (flt : Str → Option F) (n : Int) (lines : List Str) :
    readMaterialLines flt n (lines.map lower) = readMaterialLines flt n lines := by
  unfold readMaterialLines
  rw [scan_lower, card_lower, card_lower]

private theorem tally_lower (n : Int) (lines : List Str) : readTallyLines n (lines.map lower) = readTallyLines n lines := by
  unfold readTallyLines
  simp only [scan_lower, present_lower]

private theorem letterDigit_lower (x : Char) (l : Str) : letterDigit x (lower l) = letterDigit x l := by
  match l with
  | [] => rfl
  | [_] => rfl
  | a :: b :: _ =>
    show ((a.toLower.toLower == x) && isDigit b.toLower) = _
    rw [toLower_toLower]
    unfold isDigit
    rw [isDigit_toLower]
    rfl

private theorem filter_lower (x : Char) (lines : List Str) :
    (lines.map lower).filter (letterDigit x) = (lines.filter (letterDigit x)).map lower := by
  rw [List.filter_map]
  congr 2
  funext l
  exact letterDigit_lower x l

private theorem matNums_lower (lines : List Str) : getMaterialNumbers (lines.map lower) = getMaterialNumbers lines := by
  unfold getMaterialNumbers
  rw [filter_lower, List.mapM_map]
  congr 1
  funext l
  simp only [Function.comp_apply]
  rw [cleaner_lower, splitOn_lower (by decide), headD_lower, drop_lower, pyInt_lower]

private theorem talNums_lower (lines : List Str) : getTallyNumbers (lines.map lower) = getTallyNumbers lines := by
  unfold getTallyNumbers
  rw [filter_lower, List.mapM_map]
  congr 1
  funext l
  simp only [Function.comp_apply]
  rw [cleaner_lower, splitOn_lower (by decide), headD_lower, splitOn_lower (by decide), headD_lower, drop_lower, pyInt_lower]

/-- C247 (part that holds): cards, materials, tallies, mode and numbers of a data block do not depend on upper and lower case
    letters. Missing: importances on cell cards (`C247_importance_violated`). -/
theorem C247_data_partial (flt : Str → Option F) {a b : List Str} (h : SameButCase a b) :
    (∀ card, getCardLines a card = getCardLines b card) ∧ (∀ card, isCardPresent a card = isCardPresent b card) ∧
    readModeCard a = readModeCard b ∧ (∀ n, readMaterialLines flt n a = readMaterialLines flt n b) ∧
    (∀ n, readTallyLines n a = readTallyLines n b) ∧ getMaterialNumbers a = getMaterialNumbers b ∧
    getTallyNumbers a = getTallyNumbers b := by
  have tr : ∀ {α : Type} (f : List Str → α), (∀ l, f (l.map lower) = f l) → f a = f b := by
    intro α f hf
    rw [← hf a, ← hf b, h]
  exact ⟨fun c => tr (fun l => getCardLines l c) (card_lower c), fun c => tr (fun l => isCardPresent l c) (present_lower c),
    tr _ mode_lower, fun n => tr _ (material_lower flt n),
    fun n => tr _ (tally_lower n), tr _ matNums_lower, tr _ talNums_lower⟩

/-! ### The surface block -/

private theorem continue_lower (l : Str) : isContinueLine (lower l) = isContinueLine l := by
  rw [Bool.eq_iff_iff]
  unfold isContinueLine startsWith
  rw [List.isPrefixOf_iff_prefix, List.isPrefixOf_iff_prefix]
  exact blanks_of_lower 5

private theorem strip_nil_lower (l : Str) : strip (lower l) = [] ↔ strip l = [] := by
  rw [strip_lower, lower_eq_nil]

private theorem surfaceLine_lower (l : Str) : processSurfaceLine (lower l) = processSurfaceLine l := by
  unfold processSurfaceLine
  rw [lower_lower]

private theorem surfStep_lower (d : Dict Int Surface) (t l : Str) :
    surfStep (d, lower t) (lower l) = (surfStep (d, t) l).map (fun s => (s.1, lower s.2)) := by
  have hlen : (lower t).length = t.length := by simp [lower]
  unfold surfStep
  simp only [continue_lower, strip_nil_lower, lower_lower, cleaner_lower, surfaceLine_lower, hlen]
  split_ifs
  · simp [Except.map, lower]
  · rfl
  · rfl
  · cases processSurfaceLine t <;> rfl
  · rfl

private theorem surfFold_lower (bloc : List Str) : ∀ (d : Dict Int Surface) (t : Str),
    (bloc.map lower).foldlM surfStep (d, lower t) = (bloc.foldlM surfStep (d, t)).map (fun s => (s.1, lower s.2)) := by
  induction bloc with
  | nil => intro d t; rfl
  | cons l ls ih =>
    intro d t
    rw [List.map_cons, List.foldlM_cons, List.foldlM_cons, surfStep_lower]
    cases surfStep (d, t) l with
    | error e => rfl
    | ok s => exact ih s.1 s.2

private theorem surfaces_lower (bloc : List Str) : processSurfaceBlock (bloc.map lower) = processSurfaceBlock bloc := by
  unfold processSurfaceBlock
  have h := surfFold_lower bloc [] []
  rw [show lower ([] : Str) = [] from rfl] at h
  rw [h]
  cases bloc.foldlM surfStep ([], []) with
  | error e => rfl
  | ok s =>
    have hlen : (lower s.2).length = s.2.length := by simp [lower]
    show (if (lower s.2).length > 0 then processSurfaceLine (lower s.2) >>= fun x => pure (s.1.set x.number x) else pure s.1) =
      (if s.2.length > 0 then processSurfaceLine s.2 >>= fun x => pure (s.1.set x.number x) else pure s.1)
    rw [hlen, surfaceLine_lower]

/-- C247 (part that holds): the surfaces do not depend on upper and lower case letters. Missing: importances on cell cards
    (`C247_importance_violated`). -/
theorem C247_surfaces_partial {a b : List Str} (h : SameButCase a b) : processSurfaceBlock a = processSurfaceBlock b := by
  rw [← surfaces_lower a, ← surfaces_lower b, h]

/-! ### The cell block -/

/-- Two outcomes that are both results, related by `R`, or the same error. -/
def BothOr {α β : Type} (R : α → β → Prop) (x : Except Err α) (y : Except Err β) : Prop :=
  (∃ a b, x = .ok a ∧ y = .ok b ∧ R a b) ∨ ∃ e, x = .error e ∧ y = .error e

theorem both_bind {α β γ δ : Type} {R : α → β → Prop} {S : γ → δ → Prop} {x : Except Err α} {y : Except Err β}
    {f : α → Except Err γ} {g : β → Except Err δ} (h : BothOr R x y) (hf : ∀ a b, R a b → BothOr S (f a) (g b)) :
    BothOr S (x >>= f) (y >>= g) := by
  rcases h with ⟨a, b, rfl, rfl, hr⟩ | ⟨e, rfl, rfl⟩
  · exact hf a b hr
  · exact .inr ⟨e, rfl, rfl⟩

theorem both_same {α γ δ : Type} {S : γ → δ → Prop} (x : Except Err α)
    {f : α → Except Err γ} {g : α → Except Err δ} (hf : ∀ a, BothOr S (f a) (g a)) : BothOr S (x >>= f) (x >>= g) := by
  cases x with
  | ok a => exact hf a
  | error e => exact .inr ⟨e, rfl, rfl⟩

theorem both_orErr {α β γ δ : Type} {S : γ → δ → Prop} {x : Option α} (k : α → β) (e : Err)
    {f : β → Except Err γ} {g : α → Except Err δ} (hf : ∀ a, BothOr S (f (k a)) (g a)) :
    BothOr S (orErr e (x.map k) >>= f) (orErr e x >>= g) := by
  cases x with
  | some a => exact hf a
  | none => exact .inr ⟨e, rfl, rfl⟩

/-- The geometry of a cell collected from lower case parts. -/
private def GSim (s' s : GeomSt F) : Prop := s'.surfaces = s.surfaces ∧ s'.comments = s.comments.map lower

private theorem hasSub_lower {c : Char} (hc : c.toNat < 65) (s : Str) : hasSub [c] (lower s) = hasSub [c] s := by
  induction s with
  | nil => rfl
  | cons d s ih =>
    show ([c].isPrefixOf (d.toLower :: lower s) || hasSub [c] (lower s)) = _
    rw [ih]
    show _ = ([c].isPrefixOf (d :: s) || hasSub [c] s)
    congr 1
    rw [Bool.eq_iff_iff]
    simp only [List.isPrefixOf_iff_prefix, List.cons_prefix_cons, List.nil_prefix, and_true]
    constructor
    · intro h; exact ((toLower_eq_low hc).1 h.symm).symm
    · intro h; exact ((toLower_eq_low hc).2 h.symm).symm

private theorem getLastD_lower (ls : List Str) : (ls.map lower).getLastD [] = lower (ls.getLastD []) := by
  rw [List.getLastD_eq_getLast?, List.getLastD_eq_getLast?, List.getLast?_map]
  cases ls.getLast? <;> rfl

private theorem stripChars_lower (s : Str) : stripChars p!"()-" (lower s) = lower (stripChars p!"()-" s) := by
  have hp : ∀ c : Char, (p!"()-").contains c.toLower = (p!"()-").contains c := by
    intro c
    rw [Bool.eq_iff_iff]
    simp only [List.contains_iff_mem, List.mem_cons, List.not_mem_nil, or_false]
    rw [toLower_eq_low (by decide), toLower_eq_low (by decide), toLower_eq_low (by decide)]
  unfold stripChars
  rw [dropWhile_lower hp, rdropWhile_lower hp]

private theorem mapM_flt_lower (flt : Str → Option F) (hflt : ∀ s, flt (lower s) = flt s) (ls : List Str) :
    (ls.map lower).mapM (fun s => orErr Err.ValueError (flt s)) = ls.mapM (fun s => orErr Err.ValueError (flt s)) := by
  rw [List.mapM_map]
  congr 1
  funext s
  simp only [Function.comp_apply, hflt]

private theorem getElem_lower (s : Str) (i : Nat) : (lower s)[i]? = (s[i]?).map Char.toLower := by
  simp [lower]

private theorem imp_lower (flt : Str → Option F) (hflt : ∀ s, flt (lower s) = flt s) (part : Str) (d' d : Dict Char F) :
    BothOr (fun _ _ => True) (processImp flt (lower part) d') (processImp flt part d) := by
  unfold processImp
  simp only [splitOn_lower (show ('=' : Char).toNat < 65 by decide), splitOn_lower (show (':' : Char).toNat < 65 by decide),
    getLastD_lower, hflt, List.getElem?_map]
  refine both_orErr lower _ (fun rest => ?_)
  rw [getElem_lower]
  exact both_orErr Char.toLower _ (fun c => both_same _ (fun x => .inl ⟨_, _, rfl, rfl, trivial⟩))

private theorem geomPart_lower (flt : Str → Option F) (hflt : ∀ s, flt (lower s) = flt s) (part : Str) (s' s : GeomSt F)
    (h : GSim s' s) : BothOr GSim (geomPart flt s' (lower part)) (geomPart flt s part) := by
  have hlen : (lower part).length = part.length := by simp [lower]
  unfold geomPart
  simp only [hlen, stripChars_lower, lower_lower, getElem_lower]
  split_ifs
  · exact .inl ⟨_, _, rfl, rfl, h⟩
  · exact both_bind (imp_lower flt hflt _ _ _) (fun _ _ _ => .inl ⟨_, _, rfl, rfl, h⟩)
  · refine both_orErr Char.toLower _ (fun c => ?_)
    have hd : isDigit c.toLower = isDigit c := isDigit_toLower
    rw [hd, splitOn_lower (by decide), mapM_flt_lower flt hflt]
    split_ifs
    · exact both_same _ (fun xs => .inl ⟨_, _, rfl, rfl, by rw [h.1], h.2⟩)
    · exact .inl ⟨_, _, rfl, rfl, h⟩

private theorem geomStep_lower (flt : Str → Option F) (hflt : ∀ s, flt (lower s) = flt s) (part : Str) (s' s : GeomSt F)
    (h : GSim s' s) : BothOr GSim (geomStep flt s' (lower part)) (geomStep flt s part) := by
  unfold geomStep
  rw [hasSub_lower (by decide), splitOn_lower (by decide), headD_lower, getLastD_lower]
  split_ifs
  · exact geomPart_lower flt hflt _ _ _ ⟨h.1, by simp [h.2]⟩
  · exact geomPart_lower flt hflt _ _ _ h

private theorem geomFold_lower (flt : Str → Option F) (hflt : ∀ s, flt (lower s) = flt s) (geom : List Str) :
    ∀ s' s : GeomSt F, GSim s' s →
      BothOr GSim ((geom.map lower).foldlM (geomStep flt) s') (geom.foldlM (geomStep flt) s) := by
  induction geom with
  | nil => exact fun s' s h => .inl ⟨_, _, rfl, rfl, h⟩
  | cons p ps ih =>
    intro s' s h
    rw [List.map_cons, List.foldlM_cons, List.foldlM_cons]
    exact both_bind (geomStep_lower flt hflt p s' s h) ih

/-- What does not depend on the case of letters in a cell; geometry and comments keep the case of the text. -/
structure CellView (F : Type) where
  number : Int
  mat : Int
  density : Option F
  surfaces : List F
  geom : List Str
  comments : List Str

/-- The cell without its importances, texts in lower case. -/
def cellView (c : Cell F) : CellView F :=
  ⟨c.number, c.mat, c.density, c.surfaces, c.geom.map lower, c.comments.map lower⟩

/-- The same cells under the same numbers in the same order, up to importances and the case of letters. -/
def SameCells (d' d : Dict Int (Cell F)) : Prop :=
  d'.map (fun e => (e.1, cellView e.2)) = d.map (fun e => (e.1, cellView e.2))

private theorem sameCells_set {d' d : Dict Int (Cell F)} (h : SameCells d' d) (k : Int) {c' c : Cell F}
    (hc : cellView c' = cellView c) : SameCells (d'.set k c') (d.set k c) := by
  have key : ∀ (d : Dict Int (Cell F)) (c : Cell F), (d.set k c).map (fun e => (e.1, cellView e.2)) =
      Dict.set (d.map (fun e => (e.1, cellView e.2)) : Dict Int (CellView F)) k (cellView c) := by
    intro d c
    unfold Dict.set
    rw [List.any_map]
    simp only [Function.comp_def]
    split_ifs
    · rw [List.map_map, List.map_map]
      apply List.map_congr_left
      intro e _
      simp only [Function.comp_apply]
      split_ifs <;> rfl
    · simp
  unfold SameCells at h ⊢
  rw [key, key, h, hc]

private theorem lower_map_lower (l : List Str) : (l.map lower).map lower = l.map lower := by
  rw [List.map_map]
  apply List.map_congr_left
  intro s _
  exact lower_lower s

private theorem processGeom_lower (flt : Str → Option F) (hflt : ∀ s, flt (lower s) = flt s) (geom : List Str) (c : Cell F)
    (hc : c.comments = []) :
    BothOr (fun a b => cellView a = cellView b ∧ a.number = b.number) (processGeom flt (geom.map lower) c)
      (processGeom flt geom c) := by
  unfold processGeom
  refine both_bind (geomFold_lower flt hflt geom _ _ ⟨rfl, by simp [hc]⟩) (fun a b h => .inl ⟨_, _, rfl, rfl, ?_, rfl⟩)
  simp only [cellView, h.1, h.2, lower_map_lower]

/-- States of the loop over the cell block on the lower case text and on the text. -/
private structure CSim (s' s : CellSt F) : Prop where
  dict : SameCells s'.dict s.dict
  cur : s'.cur = s.cur.map (fun e => (e.1, e.2.map lower))
  clean : ∀ e, s.cur = some e → e.1.comments = []

private theorem finish_lower (flt : Str → Option F) (hflt : ∀ s, flt (lower s) = flt s) {d' d : Dict Int (Cell F)}
    (h : SameCells d' d) (e : Cell F × List Str) (he : e.1.comments = []) :
    BothOr SameCells (finishCell flt d' (e.1, e.2.map lower)) (finishCell flt d e) := by
  unfold finishCell
  refine both_bind (processGeom_lower flt hflt e.2 e.1 he) (fun a b hab => .inl ⟨_, _, rfl, rfl, ?_⟩)
  rw [hab.2]
  exact sameCells_set h _ hab.1

private theorem start_lower (flt : Str → Option F) (hflt : ∀ s, flt (lower s) = flt s) (ws : List Str) :
    BothOr (fun a b => a = (b.1, b.2.map lower) ∧ b.1.comments = []) (startCell flt (ws.map lower)) (startCell flt ws) := by
  unfold startCell
  simp only [List.getElem?_map]
  refine both_orErr lower _ (fun w0 => ?_)
  rw [pyInt_lower]
  refine both_same _ (fun n => both_orErr lower _ (fun w1 => ?_))
  rw [pyInt_lower]
  refine both_same _ (fun m => ?_)
  split_ifs
  · refine both_orErr lower _ (fun w2 => ?_)
    rw [hflt]
    exact both_same _ (fun d => .inl ⟨_, _, rfl, rfl, by simp, rfl⟩)
  · exact .inl ⟨_, _, rfl, rfl, by simp, rfl⟩

private theorem cellStep_lower (flt : Str → Option F) (hflt : ∀ s, flt (lower s) = flt s) (l : Str) (s' s : CellSt F)
    (h : CSim s' s) : BothOr CSim (cellStep flt s' (lower l)) (cellStep flt s l) := by
  unfold cellStep
  rw [getElem_lower]
  refine both_orErr Char.toLower _ (fun c => ?_)
  have hd : isDigit c.toLower = isDigit c := isDigit_toLower
  rw [hd, continue_lower, cleaner_lower, splitOn_lower (by decide)]
  by_cases h1 : isDigit c = true
  · rw [if_pos h1, if_pos h1]
    have fin : ∀ d' d : Dict Int (Cell F), SameCells d' d → BothOr CSim
        (startCell flt ((splitOn ' ' (stringCleaner l)).map lower) >>= fun cur => pure ⟨d', some cur⟩)
        (startCell flt (splitOn ' ' (stringCleaner l)) >>= fun cur => pure ⟨d, some cur⟩) := by
      intro d' d hdd
      refine both_bind (start_lower flt hflt _) (fun a b hab => .inl ⟨_, _, rfl, rfl, hdd, ?_, ?_⟩)
      · simp [hab.1]
      · rintro e he
        simp only [Option.some.injEq] at he
        rw [← he]
        exact hab.2
    rw [h.cur]
    cases hs : s.cur with
    | none => exact fin _ _ h.dict
    | some e => exact both_bind (finish_lower flt hflt h.dict e (h.clean e hs)) fin
  · rw [if_neg h1, if_neg h1]
    split_ifs
    · rw [h.cur]
      cases hs : s.cur with
      | none => exact .inl ⟨_, _, rfl, rfl, h.dict, by rw [hs]; exact h.cur.trans (by rw [hs]), by simp [hs]⟩
      | some e =>
        refine .inl ⟨_, _, rfl, rfl, h.dict, ?_, ?_⟩
        · simp
        · rintro e' he'
          simp only [Option.some.injEq] at he'
          rw [← he']
          exact h.clean e hs
    · exact .inl ⟨_, _, rfl, rfl, h⟩

private theorem cells_lower (flt : Str → Option F) (hflt : ∀ s, flt (lower s) = flt s) (bloc : List Str) :
    BothOr SameCells (processCellBlock flt (bloc.map lower)) (processCellBlock flt bloc) := by
  have hfold : ∀ (ls : List Str) (s' s : CellSt F), CSim s' s →
      BothOr CSim ((ls.map lower).foldlM (cellStep flt) s') (ls.foldlM (cellStep flt) s) := by
    intro ls
    induction ls with
    | nil => exact fun s' s h => .inl ⟨_, _, rfl, rfl, h⟩
    | cons l ls ih =>
      intro s' s h
      rw [List.map_cons, List.foldlM_cons, List.foldlM_cons]
      exact both_bind (cellStep_lower flt hflt l s' s h) ih
  unfold processCellBlock
  refine both_bind (hfold bloc ⟨[], none⟩ ⟨[], none⟩ ⟨rfl, rfl, by simp⟩) (fun s' s h => ?_)
  rw [h.cur]
  cases hs : s.cur with
  | none => exact .inr ⟨_, rfl, rfl⟩
  | some e => exact finish_lower flt hflt h.dict e (h.clean e hs)

private theorem both_symm_trans {α : Type} {R : α → α → Prop} (hs : ∀ a b, R a b → R b a) (ht : ∀ a b c, R a b → R b c → R a c)
    {x y z : Except Err α} (h1 : BothOr R z x) (h2 : BothOr R z y) : BothOr R x y := by
  rcases h1 with ⟨a, b, rfl, rfl, hr⟩ | ⟨e, rfl, rfl⟩
  · rcases h2 with ⟨a', c, ha, rfl, hr'⟩ | ⟨e, he, -⟩
    · injection ha with ha
      subst ha
      exact .inl ⟨b, c, rfl, rfl, ht _ _ _ (hs _ _ hr) hr'⟩
    · cases he
  · rcases h2 with ⟨a', c, ha, -, -⟩ | ⟨e', he, rfl⟩
    · cases ha
    · injection he with he
      subst he
      exact .inr ⟨e, rfl, rfl⟩

/-- C247 (part that holds): numbers, materials, densities, surfaces, geometry and comments of the cells do not depend on upper
    and lower case letters (beyond the case of the texts kept), if that is so for the numbers. Missing: importances
    (`C247_importance_violated`). -/
theorem C247_cells_partial (flt : Str → Option F) (hflt : ∀ s, flt (lower s) = flt s) {a b : List Str} (h : SameButCase a b) :
    BothOr SameCells (processCellBlock flt a) (processCellBlock flt b) := by
  refine both_symm_trans (fun _ _ h => h.symm) (fun _ _ _ h h' => h.trans h') (cells_lower flt hflt a) ?_
  rw [h]
  exact cells_lower flt hflt b

/-! ### Whole inputs -/

private theorem blank_lower (lines : List Str) : findBlankLines (lines.map lower) = findBlankLines lines := by
  unfold findBlankLines
  have h : (lines.map lower).zipIdx.filterMap (fun e => if strip e.1 == [] then some e.2 else none) =
      lines.zipIdx.filterMap (fun e => if strip e.1 == [] then some e.2 else none) := by
    rw [List.zipIdx_map, List.filterMap_map]
    congr 1
    funext e
    simp only [Function.comp_apply, Prod.map, id]
    have : (strip (lower e.1) == []) = (strip e.1 == []) := by
      rw [Bool.eq_iff_iff]
      simp only [beq_iff_eq]
      exact strip_nil_lower e.1
    rw [this]
  simp only [h]

/-- What does not depend on the case of letters in an input. -/
structure SameInput (i j : Input F) : Prop where
  cells : SameCells i.cells j.cells
  surfaces : i.surfaces = j.surfaces
  mode : i.mode = j.mode
  talNums : i.talNums = j.talNums
  matNums : i.matNums = j.matNums
  materials : i.materials = j.materials
  tallies : i.tallies = j.tallies
  flags : i.isVoid = j.isVoid ∧ i.isKcode = j.isKcode ∧ i.isSdef = j.isSdef ∧ i.isPtrac = j.isPtrac
  comments : i.comments.map (fun e => (e.1, lower e.2)) = j.comments.map (fun e => (e.1, lower e.2))

private theorem comments_lower (lines : List Str) :
    getFullLineComments (lines.map lower) = (getFullLineComments lines).map (fun e => (e.1, lower e.2)) := by
  unfold getFullLineComments
  rw [List.zipIdx_map, List.filterMap_map, List.map_filterMap]
  congr 1
  funext e
  simp only [Function.comp_apply, Prod.map, id, lower_lower]
  split_ifs <;> rfl

private theorem materials_lower (flt : Str → Option F) (lines : List Str) (ns : List Int) :
    ∀ d, readMaterials flt (lines.map lower) ns d = readMaterials flt lines ns d := by
  induction ns with
  | nil => intro d; rfl
  | cons n ns ih =>
    intro d
    simp only [readMaterials, material_lower, ih]

private theorem tallies_lower (lines : List Str) (ns : List Int) : readTallies (lines.map lower) ns = readTallies lines ns := by
  unfold readTallies
  cases ns with
  | nil => rfl
  | cons n ns => simp only [tally_lower]

private theorem input_lower (flt : Str → Option F) (hflt : ∀ s, flt (lower s) = flt s) (path path' : Str) (lines : List Str) :
    BothOr SameInput (readLines flt path (lines.map lower)) (readLines flt path' lines) := by
  unfold readLines splitBlocs
  rw [blank_lower]
  simp only [bind_assoc]
  refine both_same _ (fun b1 => both_same _ (fun b2 => ?_))
  simp only [pure_bind, slice]
  rw [← List.map_take, ← List.map_take, ← List.map_drop, ← List.map_drop, surfaces_lower, talNums_lower, matNums_lower]
  refine both_bind (cells_lower flt hflt _) (fun c' c hc => both_same _ (fun sf => both_same _ (fun tn => both_same _
    (fun mn => ?_))))
  rw [materials_lower]
  refine both_same _ (fun ms => .inl ⟨_, _, rfl, rfl, hc, rfl, mode_lower _, rfl, rfl, rfl, tallies_lower _ _,
    ⟨present_lower _ _, present_lower _ _, present_lower _ _, present_lower _ _⟩, ?_⟩)
  simp only [comments_lower, List.map_map]
  apply List.map_congr_left
  intro e _
  simp only [Function.comp_apply, lower_lower]

/-- C247 (part that holds): the whole input. Missing: importances (`C247_importance_violated`). -/
theorem C247_input_partial (flt : Str → Option F) (hflt : ∀ s, flt (lower s) = flt s) (path path' : Str) {a b : List Str}
    (h : SameButCase a b) : BothOr SameInput (readLines flt path a) (readLines flt path' b) := by
  refine both_symm_trans (z := readLines flt path (a.map lower)) ?_ ?_ (input_lower flt hflt path path a) ?_
  · rintro x y ⟨h1, h2, h3, h4, h5, h6, h7, ⟨f1, f2, f3, f4⟩, h9⟩
    exact ⟨h1.symm, h2.symm, h3.symm, h4.symm, h5.symm, h6.symm, h7.symm, ⟨f1.symm, f2.symm, f3.symm, f4.symm⟩, h9.symm⟩
  · rintro x y z ⟨h1, h2, h3, h4, h5, h6, h7, ⟨f1, f2, f3, f4⟩, h9⟩ ⟨g1, g2, g3, g4, g5, g6, g7, ⟨k1, k2, k3, k4⟩, g9⟩
    exact ⟨h1.trans g1, h2.trans g2, h3.trans g3, h4.trans g4, h5.trans g5, h6.trans g6, h7.trans g7,
      ⟨f1.trans k1, f2.trans k2, f3.trans k3, f4.trans k4⟩, h9.trans g9⟩
  · rw [h]
    exact input_lower flt hflt path path' b

/-- C247 is violated: the importance of `IMP:N=1` is stored for a particle N, so asking for the importance for neutrons finds
    nothing, while `imp:n=1` is found. -/
theorem C247_importance_violated : ∃ (a b : List Str) (flt : Str → Option Nat) (c d : Cell Nat),
    SameButCase a b ∧ processCellBlock flt a = .ok [(1, c)] ∧ processCellBlock flt b = .ok [(1, d)] ∧
    c.imp.get 'n' = some 1 ∧ d.imp.get 'n' = none :=
  ⟨[p!"1 0 -5 imp:n=1"], [p!"1 0 -5 IMP:N=1"], fun s => if s = p!"5" then some 5 else if s = p!"1" then some 1 else none,
    ⟨1, 0, none, [('n', 1)], [p!"-5", p!"imp:n=1"], [5], []⟩, ⟨1, 0, none, [('N', 1)], [p!"-5", p!"IMP:N=1"], [5], []⟩,
    by unfold SameButCase; decide +kernel, by decide +kernel, by decide +kernel, by decide +kernel, by decide +kernel⟩

example : ∀ s, pyInt (lower s) = pyInt s := pyInt_lower

example : SameButCase [p!"MODE N P", p!"M1 1001.70C 2"] [p!"mode n p", p!"m1 1001.70c 2"] := by
  unfold SameButCase; decide +kernel

example : readModeCard [p!"MODE N P", p!"M1 1001.70C 2"] = some [p!"n", p!"p"] := by decide +kernel

example : processSurfaceBlock [p!"1 SO 5"] = processSurfaceBlock [p!"1 so 5"] ∧
    (processSurfaceBlock [p!"1 so 5"]).isOk = true := by decide +kernel

end Props
