/- Properties C106-C111, C144, C145 of r2s_cell.py. -/
import Verif.Model.R2sCell
import Verif.Proofs.PyM
import Verif.Proofs.MapM
import Verif.Proofs.Except
import Verif.Proofs.Dict
import Verif.Proofs.NeutUtilities
import Verif.Props.McnpOutput

set_option linter.unusedSimpArgs false
set_option linter.unusedSectionVars false

namespace Props
open Py NeutUtilities R2sCell

variable {F : Type}

/-! ### C106 -/

/-- The attributes by name; a missing attribute is `none`. -/
def attributes (inp : Inputs F) : List (Str × Option (Json F)) :=
  [(p!"mc_input", some inp.mcInput), (p!"mc_output", inp.mcOutput), (p!"mc_gamma_input", some inp.mcGammaInput),
   (p!"mc_code", some inp.mcCode), (p!"files_file", some inp.filesFile), (p!"fispact_template", some inp.fispactTemplate),
   (p!"tallies", some inp.tallies), (p!"cells", some inp.cells), (p!"fispact_path", some inp.fispactPath),
   (p!"cooling_step", some inp.coolingStep)]

/-- The known keys with their defaults. -/
def knownKeys (F : Type) : List (Str × Option (Json F)) :=
  [(p!"mc_input", some .null), (p!"mc_output", none), (p!"mc_gamma_input", some .null), (p!"mc_code", some (.str p!"MCNP")),
   (p!"files_file", some .null), (p!"fispact_template", some .null), (p!"tallies", some .null), (p!"cells", some .null),
   (p!"fispact_path", some .null), (p!"cooling_step", some (.int 1))]

private theorem attributes_keys (inp : Inputs F) : (attributes inp).map (·.1) = (knownKeys F).map (·.1) := rfl

private theorem assign_ok {inp inp' : Inputs F} {k : Str} {v : Json F} (h : assign inp k v = .ok inp') :
    attributes inp' = (attributes inp).map (fun e => if e.1 = k then (e.1, some v) else e) := by
  unfold assign at h
  split_ifs at h <;> cases h <;> subst k <;> rfl

private theorem assign_known {inp : Inputs F} {k : Str} {v : Json F} : (∃ inp', assign inp k v = .ok inp') ↔ k ∈ (knownKeys F).map (·.1) := by
  have hl : (knownKeys F).map (·.1) = [p!"mc_input", p!"mc_output", p!"mc_gamma_input", p!"mc_code", p!"files_file", p!"fispact_template",
    p!"tallies", p!"cells", p!"fispact_path", p!"cooling_step"] := rfl
  rw [hl]
  simp only [List.mem_cons, List.not_mem_nil, or_false]
  constructor
  · rintro ⟨inp', h⟩
    by_contra hn
    simp only [not_or] at hn
    obtain ⟨n1, n2, n3, n4, n5, n6, n7, n8, n9, n10⟩ := hn
    unfold assign at h
    rw [if_neg n1, if_neg n2, if_neg n3, if_neg n4, if_neg n5, if_neg n6, if_neg n7, if_neg n8, if_neg n9, if_neg n10] at h
    cases h
  · rintro (rfl | rfl | rfl | rfl | rfl | rfl | rfl | rfl | rfl | rfl) <;> exact ⟨_, rfl⟩

private theorem assign_unknown {inp : Inputs F} {k : Str} {v : Json F} (h : k ∉ (knownKeys F).map (·.1)) : assign inp k v = .error .ValueError := by
  cases h' : assign inp k v with
  | ok i => exact absurd (assign_known.1 ⟨i, h'⟩) h
  | error e =>
    unfold assign at h'
    split_ifs at h'
    cases h'; rfl

private theorem fold_ok (d : List (Str × Json F)) : ∀ (inp : Inputs F), (d.map (·.1)).Nodup → (∀ e ∈ d, e.1 ∈ (knownKeys F).map (·.1)) →
    ∃ r, d.foldlM (fun inp e => assign inp e.1 e.2) inp = .ok r ∧
      attributes r = (attributes inp).map (fun e => (e.1, match Dict.get d e.1 with | some v => some v | none => e.2)) := by
  induction d with
  | nil =>
    intro inp _ _
    refine ⟨inp, rfl, ?_⟩
    conv_lhs => rw [← List.map_id (attributes inp)]
    apply List.map_congr_left
    intro e _; rfl
  | cons e d ih =>
    intro inp hnd hk
    obtain ⟨inp1, h1⟩ := (assign_known (inp := inp) (v := e.2)).2 (hk e (by simp))
    rw [List.map_cons, List.nodup_cons] at hnd
    obtain ⟨r, h2, h3⟩ := ih inp1 hnd.2 (fun e' he' => hk e' (by simp [he']))
    refine ⟨r, by rw [List.foldlM_cons, h1]; exact h2, ?_⟩
    rw [h3, assign_ok h1, List.map_map]
    apply List.map_congr_left
    intro a _
    simp only [Function.comp]
    by_cases ha : a.1 = e.1
    · rw [if_pos ha]
      have hn : Dict.get d a.1 = none := by rw [Dict.get_eq_none_iff, ha]; exact hnd.1
      have hc : Dict.get (e :: d) a.1 = some e.2 := by simp [Dict.get, ha]
      simp only [hn, hc]
    · rw [if_neg ha]
      have hc : Dict.get (e :: d) a.1 = Dict.get d a.1 := by
        simp only [Dict.get]
        rw [List.find?_cons_of_neg]
        simp only [decide_eq_true_eq]
        exact fun h => ha h.symm
      rw [hc]

/-- A file with known keys only: each attribute is the value in the file, or else the default. -/
theorem C106_values_partial (d : List (Str × Json F)) (hnd : (d.map (·.1)).Nodup) (hk : ∀ e ∈ d, e.1 ∈ (knownKeys F).map (·.1)) :
    ∃ inp, fromConfig (.obj d) = .ok inp ∧
      attributes inp = (knownKeys F).map (fun e => (e.1, match Dict.get d e.1 with | some v => some v | none => e.2)) :=
  fold_ok d {} hnd hk

/-- An unknown key raises ValueError. -/
theorem C106_unknown (d : List (Str × Json F)) (h : ∃ e ∈ d, e.1 ∉ (knownKeys F).map (·.1)) : fromConfig (.obj d) = .error .ValueError := by
  show d.foldlM (fun inp e => assign inp e.1 e.2) ({} : Inputs F) = _
  generalize ({} : Inputs F) = inp
  induction d generalizing inp with
  | nil => obtain ⟨e, he, _⟩ := h; simp at he
  | cons a d ih =>
    rw [List.foldlM_cons]
    by_cases ha : a.1 ∈ (knownKeys F).map (·.1)
    · obtain ⟨inp1, h1⟩ := (assign_known (inp := inp) (v := a.2)).2 ha
      rw [h1]
      apply ih
      obtain ⟨e, he, hne⟩ := h
      rcases List.mem_cons.1 he with rfl | he
      · exact absurd ha hne
      · exact ⟨e, he, hne⟩
    · rw [assign_unknown ha]; rfl

/-- The whole function; the file system is not changed. -/
theorem C106_file (json : Str → Except Err (Json F)) (path : Str) (fs : FS) (hp : path ≠ []) :
    (fs.node path = none → readConfig json path fs = (.error .FileNotFoundError, fs)) ∧
    (∀ c, fs.node path = some (.file c) → readConfig json path fs =
      ((match json (univNL c) with | .ok j => fromConfig j | .error e => .error e), fs)) := by
  constructor
  · intro h
    unfold readConfig
    rw [PyM.bind_ok (PyM.getFS_run fs)]
    have : pathExists fs path = false := by simp [pathExists, h, hp]
    simp [this]
  · intro c h
    unfold readConfig
    rw [PyM.bind_ok (PyM.getFS_run fs)]
    have : pathExists fs path = true := by simp [pathExists, h]
    simp only [this, if_true]
    have hr : readText path fs = (.ok (univNL c), fs) := by simp [readText, h]
    rw [PyM.bind_ok hr]
    cases hj : json (univNL c) with
    | error e => rw [PyM.bind_err (fs' := fs) (e := e)]; rfl
    | ok j => rw [PyM.bind_ok (fs' := fs) (a := j)] <;> rfl

/-- Without the key "mc_output" the attribute does not exist, and reading it raises AttributeError. -/
theorem C106_no_default_violated [LinearOrder F] (flt : Str → Option F) (m : F) (enum : List Str → List Str) (d : List (Str × Json F))
    (hnd : (d.map (·.1)).Nodup) (hk : ∀ e ∈ d, e.1 ∈ (knownKeys F).map (·.1)) (hm : Dict.get d p!"mc_output" = none) (fs : FS) :
    ∃ inp, fromConfig (.obj d) = .ok inp ∧ inp.mcOutput = none ∧ readDataFromMcnpOutput flt m enum inp fs = (.error .AttributeError, fs) := by
  obtain ⟨inp, h1, h2⟩ := C106_values_partial d hnd hk
  have h3 : inp.mcOutput = none := by
    have := congrArg (fun l => (l[1]?).map (·.2)) h2
    simp only [attributes, knownKeys, List.map_cons, List.getElem?_cons_succ, List.getElem?_cons_zero, Option.map_some, hm, Option.some.injEq] at this
    exact this
  refine ⟨inp, h1, h3, ?_⟩
  unfold readDataFromMcnpOutput
  rw [h3]
  rfl

example : ∃ inp : Inputs ℚ, fromConfig (.obj [(p!"mc_code", .str p!"mcnp"), (p!"cooling_step", .int 3)]) = .ok inp ∧ inp.mcOutput.isNone = true :=
  ⟨_, rfl, rfl⟩

/-! ### C107 -/

/-- A cell flux tally of the requested particle and, if given, one of the requested numbers. -/
def Selected (particle : Str) (tallies : Option (List Int)) (t : McnpOutput.Tally F) : Prop :=
  t.tallyType = '4' ∧ t.particle = particle ∧ ∀ ns, tallies = some ns → t.number ∈ ns

private theorem wanted_iff (particle : Str) (tallies : Option (List Int)) (t : McnpOutput.Tally F) :
    wanted particle tallies t = true ↔ Selected particle tallies t := by
  unfold wanted Selected
  cases tallies with
  | none => simp
  | some ns => simp [and_assoc]

private theorem wanted_fold (particle : Str) (tallies : Option (List Int)) (ts : List (McnpOutput.Tally F)) :
    ∀ acc : List Str × List (McnpOutput.Tally F), ts.foldl (fun (acc : List Str × List (McnpOutput.Tally F)) t =>
      if wanted particle tallies t then (acc.1 ++ t.cells, acc.2 ++ [t]) else acc) acc =
      (acc.1 ++ (ts.filter (wanted particle tallies)).flatMap (·.cells), acc.2 ++ ts.filter (wanted particle tallies)) := by
  induction ts with
  | nil => intro acc; simp
  | cons t ts ih =>
    intro acc
    rw [List.foldl_cons, ih]
    by_cases h : wanted particle tallies t = true
    · simp [h]
    · simp [h]

open Classical in
/-- The selected tallies in order, and their cells as integers, in order. -/
theorem C107_selection (out : McnpOutput.Output F) (particle : Str) (tallies : Option (List Int)) (ns : List Int) (ts : List (McnpOutput.Tally F)) :
    getCellsMcnp out particle tallies = .ok (ns, ts) ↔
      ts = out.tallyData.filter (fun t => decide (Selected particle tallies t)) ∧
      List.Forall₂ (fun s n => pyInt s = some n) (ts.flatMap (·.cells)) ns := by
  have hf : out.tallyData.filter (fun t => decide (Selected particle tallies t)) = out.tallyData.filter (wanted particle tallies) := by
    apply List.filter_congr
    intro t _
    rw [Bool.eq_iff_iff, decide_eq_true_eq, wanted_iff]
  rw [hf]
  unfold getCellsMcnp
  simp only [wanted_fold, List.nil_append]
  rw [ex_bind_ok]
  simp only [ex_pure, Except.ok.injEq, Prod.mk.injEq]
  constructor
  · rintro ⟨a, h1, rfl, rfl⟩
    rw [mapM_except_ok_iff] at h1
    exact ⟨rfl, h1.imp (fun s n h => by rwa [orErr_ok_iff] at h)⟩
  · rintro ⟨rfl, h⟩
    refine ⟨ns, ?_, rfl, rfl⟩
    rw [mapM_except_ok_iff]
    exact h.imp (fun s n h => by rwa [orErr_ok_iff])

open Classical in
/-- ValueError exactly when a cell of a selected tally is no integer; no other exception. -/
theorem C107_errors (out : McnpOutput.Output F) (particle : Str) (tallies : Option (List Int)) :
    (∀ e, getCellsMcnp out particle tallies = .error e → e = .ValueError) ∧
    (getCellsMcnp out particle tallies = .error .ValueError ↔ ∃ t ∈ out.tallyData, Selected particle tallies t ∧ ∃ s ∈ t.cells, pyInt s = none) := by
  have key : ∀ l : List Str, (∃ ns, l.mapM (fun s => orErr Err.ValueError (pyInt s)) = .ok ns ∧ ∀ s ∈ l, pyInt s ≠ none) ∨
      (l.mapM (fun s => orErr Err.ValueError (pyInt s)) = .error .ValueError ∧ ∃ s ∈ l, pyInt s = none) := by
    intro l
    induction l with
    | nil => left; exact ⟨[], rfl, by simp⟩
    | cons s l ih =>
      cases hs : pyInt s with
      | none =>
        right
        exact ⟨mapM_except_cons_err (by rw [hs]; rfl), s, by simp, hs⟩
      | some n =>
        have hc : (s :: l).mapM (fun s => orErr Err.ValueError (pyInt s)) = (l.mapM (fun s => orErr Err.ValueError (pyInt s))).map (n :: ·) :=
          mapM_except_cons_ok (by rw [hs]; rfl)
        rcases ih with ⟨ns, h1, h2⟩ | ⟨h1, s', h2, h3⟩
        · left
          refine ⟨n :: ns, by rw [hc, h1]; rfl, ?_⟩
          intro s' hs'
          rcases List.mem_cons.1 hs' with rfl | hs'
          · rw [hs]; simp
          · exact h2 s' hs'
        · right
          exact ⟨by rw [hc, h1]; rfl, s', by simp [h2], h3⟩
  have hm : ∀ s : Str, s ∈ (out.tallyData.filter (wanted particle tallies)).flatMap (·.cells) ↔
      ∃ t ∈ out.tallyData, Selected particle tallies t ∧ s ∈ t.cells := by
    intro s
    simp only [List.mem_flatMap, List.mem_filter, wanted_iff, and_assoc]
  unfold getCellsMcnp
  simp only [wanted_fold, List.nil_append]
  rcases key ((out.tallyData.filter (wanted particle tallies)).flatMap (·.cells)) with ⟨ns, h1, h2⟩ | ⟨h1, s, h2, h3⟩
  · rw [h1]
    refine ⟨fun e h => by simp [ex_ok_bind, ex_pure] at h, ?_⟩
    constructor
    · intro h; simp [ex_ok_bind, ex_pure] at h
    · rintro ⟨t, ht, hsel, s, hs, hn⟩
      exact absurd hn (h2 s ((hm s).2 ⟨t, ht, hsel, hs⟩))
  · rw [h1]
    refine ⟨fun e h => by simp only [ex_err_bind, Except.error.injEq] at h; exact h.symm, ?_⟩
    refine ⟨fun _ => ?_, fun _ => rfl⟩
    obtain ⟨t, ht, hsel, hs⟩ := (hm s).1 h2
    exact ⟨t, ht, hsel, s, hs, h3⟩

example : Selected p!"neutrons" (some [4, 14]) (⟨14, '4', p!"neutrons", .inr 5, .items [], .items [], none, none, none, none, [], [], [], [],
    none, none, none, none, none, []⟩ : McnpOutput.Tally ℚ) := by
  refine ⟨rfl, rfl, ?_⟩
  rintro ns h
  cases h
  simp

/-! ### C108 -/

/-- One row per requested cell, in order. -/
theorem C108_rows (cells : Dict Int (McnpInput.Cell F)) (ns : List Int) (rows : List (Row F)) :
    getCellData cells ns = .ok (some rows) ↔
      ns ≠ [] ∧ List.Forall₂ (fun n (r : Row F) => ∃ c, cells.get n = some c ∧ r.number = c.number ∧ r.material = c.mat ∧ r.density = c.density) ns rows := by
  unfold getCellData
  rw [ex_bind_ok]
  have hstep : ∀ (n : Int) (c : McnpInput.Cell F),
      (if McnpInput.checkCellExists n cells then orErr .AttributeError (McnpInput.getCell n cells) else .error .ValueError) = Except.ok c ↔ cells.get n = some c := by
    intro n c
    unfold McnpInput.checkCellExists McnpInput.getCell
    cases cells.get n <;> simp [orErr]
  simp only [ex_pure, Except.ok.injEq]
  constructor
  · rintro ⟨cs, h1, h2⟩
    rw [mapM_except_ok_iff] at h1
    simp only [hstep] at h1
    split at h2
    · cases h2
    · rename_i hne
      rw [Option.some.injEq] at h2
      subst h2
      constructor
      · rintro rfl
        cases h1
        simp at hne
      · clear hne
        induction h1 with
        | nil => exact .nil
        | cons h _ ih => exact .cons ⟨_, h, rfl, rfl, rfl⟩ ih
  · rintro ⟨hne, h⟩
    have : ∃ cs, List.Forall₂ (fun n c => cells.get n = some c) ns cs ∧ rows = cs.map (fun c => (⟨c.number, c.mat, c.density⟩ : Row F)) := by
      clear hne
      induction h with
      | nil => exact ⟨[], .nil, rfl⟩
      | cons h _ ih =>
        obtain ⟨cs, h1, h2⟩ := ih
        obtain ⟨c, h3, h4, h5, h6⟩ := h
        refine ⟨c :: cs, .cons h3 h1, ?_⟩
        rename_i r _ _ _
        obtain ⟨a, b, d⟩ := r
        simp only at h4 h5 h6
        subst h4 h5 h6 h2
        rfl
    obtain ⟨cs, h1, h2⟩ := this
    refine ⟨cs, ?_, ?_⟩
    · rw [mapM_except_ok_iff]
      simp only [hstep]
      exact h1
    · rw [← h2, if_neg]
      cases h with
      | nil => exact absurd rfl hne
      | cons => simp

/-- ValueError exactly when a requested cell does not exist; no other exception. -/
theorem C108_errors (cells : Dict Int (McnpInput.Cell F)) (ns : List Int) :
    (∀ e, getCellData cells ns = .error e → e = .ValueError) ∧ (getCellData cells ns = .error .ValueError ↔ ∃ n ∈ ns, cells.get n = none) := by
  have key : ∀ l : List Int, (∃ cs, l.mapM (fun n => if McnpInput.checkCellExists n cells then orErr .AttributeError (McnpInput.getCell n cells) else Except.error Err.ValueError) = .ok cs ∧
        ∀ n ∈ l, cells.get n ≠ none) ∨
      (l.mapM (fun n => if McnpInput.checkCellExists n cells then orErr .AttributeError (McnpInput.getCell n cells) else Except.error Err.ValueError) = .error .ValueError ∧
        ∃ n ∈ l, cells.get n = none) := by
    intro l
    induction l with
    | nil => left; exact ⟨[], rfl, by simp⟩
    | cons n l ih =>
      cases hn : cells.get n with
      | none =>
        right
        refine ⟨mapM_except_cons_err ?_, n, by simp, hn⟩
        simp [McnpInput.checkCellExists, McnpInput.getCell, hn]
      | some c =>
        have hc : (n :: l).mapM (fun n => if McnpInput.checkCellExists n cells then orErr .AttributeError (McnpInput.getCell n cells) else Except.error Err.ValueError) =
            (l.mapM (fun n => if McnpInput.checkCellExists n cells then orErr .AttributeError (McnpInput.getCell n cells) else Except.error Err.ValueError)).map (c :: ·) := by
          apply mapM_except_cons_ok
          simp [McnpInput.checkCellExists, McnpInput.getCell, hn, orErr]
        rcases ih with ⟨cs, h1, h2⟩ | ⟨h1, n', h2, h3⟩
        · left
          refine ⟨c :: cs, by rw [hc, h1]; rfl, ?_⟩
          intro n' hn'
          rcases List.mem_cons.1 hn' with rfl | hn'
          · rw [hn]; simp
          · exact h2 n' hn'
        · right
          exact ⟨by rw [hc, h1]; rfl, n', by simp [h2], h3⟩
  unfold getCellData
  rcases key ns with ⟨cs, h1, h2⟩ | ⟨h1, n, h2, h3⟩
  · rw [h1]
    refine ⟨fun e h => by simp [ex_ok_bind, ex_pure] at h, ?_⟩
    constructor
    · intro h; simp [ex_ok_bind, ex_pure] at h
    · rintro ⟨n, hn, hnone⟩; exact absurd hnone (h2 n hn)
  · rw [h1]
    exact ⟨fun e h => by simp only [ex_err_bind, Except.error.injEq] at h; exact h.symm, fun _ => ⟨n, h2, h3⟩, fun _ => rfl⟩

/-- No cells: None instead of a table. -/
theorem C108_none (cells : Dict Int (McnpInput.Cell F)) (ns : List Int) : getCellData cells ns = .ok none ↔ ns = [] := by
  constructor
  · intro h
    by_contra hne
    unfold getCellData at h
    rw [ex_bind_ok] at h
    obtain ⟨cs, h1, h2⟩ := h
    rw [mapM_except_ok_iff] at h1
    cases h1 with
    | nil => exact hne rfl
    | cons => simp [ex_pure] at h2
  · rintro rfl; rfl

example : getCellData ([(3, ⟨3, 7, some 1, [], [], [], []⟩)] : Dict Int (McnpInput.Cell ℚ)) [3, 3] = .ok (some [⟨3, 7, some 1⟩, ⟨3, 7, some 1⟩]) := by rfl

/-! ### C109 -/

/-- The folder, what is inside it, and the folders it is in. -/
def FolderPart (path q : Str) : Prop := q = path ∨ path ++ p!"/" <+: q ∨ q ++ p!"/" <+: path

private theorem parent_prefix {p d : Str} (h : parent p = some d) : d ++ p!"/" <+: p := by
  unfold parent at h
  have hd := List.takeWhile_append_dropWhile (p := (· ≠ '/')) (l := p.reverse)
  split at h
  · cases h
  · rename_i c r heq
    rw [Option.some.injEq] at h
    have hc : c = '/' := by
      have := List.head?_dropWhile_not (p := (· ≠ '/')) p.reverse
      rw [heq] at this
      simpa using this
    rw [heq] at hd
    have : p = r.reverse ++ c :: ((p.reverse.takeWhile (· ≠ '/')).reverse) := by
      have := congrArg List.reverse hd
      simp only [List.reverse_append, List.reverse_cons, List.reverse_reverse, List.append_assoc, List.singleton_append] at this
      exact this.symm
    rw [← h, hc] at *
    exact ⟨_, by rw [List.append_assoc]; exact this.symm⟩

private theorem mkdir_touches {S : Str → Prop} {p : Str} (h : S p) : Touches S (mkdir p) := by
  intro fs
  unfold mkdir
  split
  · refine ⟨rfl, fun q hq => ?_⟩
    show (if q = p then _ else fs.node q) = _
    rw [if_neg]
    rintro rfl; exact hq h
  · exact ⟨rfl, fun _ _ => rfl⟩

/-- `q` is `path` or a folder it is in. -/
private def Above (path q : Str) : Prop := q = path ∨ q ++ p!"/" <+: path

private theorem makedirs_touches (path : Str) : ∀ (fuel : Nat) (p : Str), Above path p → Touches (Above path) (makedirs fuel p) := by
  intro fuel
  induction fuel with
  | zero => intro p _; exact Touches.raise _
  | succ n ih =>
    intro p hp
    unfold makedirs
    apply Touches.bind Touches.getFS
    intro fs
    cases hpar : parent p with
    | none => exact mkdir_touches hp
    | some d =>
      simp only
      have hd : Above path d := by
        right
        have := parent_prefix hpar
        rcases hp with rfl | hp
        · exact this
        · exact this.trans ((List.prefix_append p p!"/").trans hp)
      apply Touches.bind
      · split
        · exact ih d hd
        · exact Touches.pure _
      · intro _; exact mkdir_touches hp

private theorem ensureDir_touches (path : Str) : Touches (Above path) (ensureDir path) := by
  intro fs
  unfold ensureDir
  split
  · exact makedirs_touches path _ path (Or.inl rfl) fs
  · exact ⟨rfl, fun _ _ => rfl⟩

private theorem writeLines_touches {S : Str → Prop} {p : Str} (ls : List Str) (h : S p) : Touches S (writeLines p ls) := Touches.writeText _ h

private theorem copyfile_touches {S : Str → Prop} {src dst : Str} (h : S dst) : Touches S (copyfile src dst) := by
  unfold copyfile
  apply Touches.bind Touches.getFS
  intro fs
  split
  · split
    · exact Touches.raise _
    · exact Touches.writeText _ h
  · exact Touches.raise _
  · exact Touches.raise _

private theorem copyFilesFile_touches {S : Str → Prop} (inp : Inputs F) {path : Str} (h : S (path ++ p!"/FILES")) : Touches S (copyFilesFile inp path) := by
  unfold copyFilesFile
  apply Touches.bind (Touches.lift _)
  intro src
  apply Touches.bind Touches.getFS
  intro fs
  split
  · exact copyfile_touches h
  · exact Touches.raise _

private theorem checkFilesFile_touches {S : Str → Prop} (p : Str) : Touches S (checkFilesFile p) := by
  unfold checkFilesFile
  apply Touches.bind Touches.getFS
  intro fs
  split
  · exact Touches.pure _
  · exact Touches.raise _

theorem r2s_setup_touches (path : Str) (inp : Inputs F) : Touches (FolderPart path) (fispactSetup path inp) := by
  have hin : ∀ s : Str, FolderPart path (path ++ (p!"/" ++ s)) := fun s => Or.inr (Or.inl ⟨s, by rw [List.append_assoc]⟩)
  unfold fispactSetup
  apply Touches.bind
  · refine (ensureDir_touches path).mono ?_
    rintro q (h | h)
    · exact Or.inl h
    · exact Or.inr (Or.inr h)
  intro _
  apply Touches.bind (writeLines_touches _ (hin p!"collapse.i"))
  intro _
  apply Touches.bind (writeLines_touches _ (hin p!"array.i"))
  intro _
  apply Touches.bind
  · apply writeLines_touches
    have := hin (path ++ p!".i")
    rwa [← List.append_assoc, ← List.append_assoc] at this
  intro _
  apply Touches.bind (copyFilesFile_touches inp (hin p!"FILES"))
  intro _
  apply Touches.bind (checkFilesFile_touches _)
  intro _
  exact writeLines_touches _ (hin p!"fluxes")

/-- Nothing outside the folder and its parents is changed, whether the function returns or raises. -/
theorem C109_only_inside (path : Str) (inp : Inputs F) (fs : FS) (q : Str) (h : ¬ FolderPart path q) :
    (fispactSetup path inp fs).2.node q = fs.node q := ((r2s_setup_touches path inp) fs).2 q h

/-- Text of a file written line by line. -/
def fileText (ls : List Str) : Str := ls.flatMap (fun l => l ++ ['\n'])

private theorem writeLines_run {p : Str} {ls : List Str} {fs fs' : FS} (h : writeLines p ls fs = (.ok (), fs')) :
    fs' = fs.put p (.file (fileText ls)) ∧ fs.canWrite p = true := by
  unfold writeLines writeText at h
  split at h
  · rename_i hc
    simp only [Prod.mk.injEq, true_and] at h
    exact ⟨h.symm, hc⟩
  · simp at h

private theorem writeLines_put {p : Str} (ls : List Str) {fs : FS} (h : fs.canWrite p = true) :
    writeLines p ls fs = (.ok (), fs.put p (.file (fileText ls))) := by
  unfold writeLines writeText
  rw [if_pos h]; rfl

private theorem copy_run {inp : Inputs F} {path : Str} {fs fs' : FS} (h : copyFilesFile inp path fs = (.ok (), fs')) :
    ∃ src c, inp.filesFile = .str src ∧ fs.node src = some (.file c) ∧ src ≠ path ++ p!"/FILES" ∧ fs' = fs.put (path ++ p!"/FILES") (.file c) := by
  unfold copyFilesFile at h
  rw [pym_bind_ok] at h
  obtain ⟨src, fs1, h1, h2⟩ := h
  simp only [PyM.lift_run, Prod.mk.injEq] at h1
  obtain ⟨h1, rfl⟩ := h1
  have hsrc : inp.filesFile = .str src := by
    unfold asPath at h1
    cases hf : inp.filesFile <;> rw [hf] at h1 <;> simp_all
  rw [PyM.bind_ok (PyM.getFS_run fs)] at h2
  split at h2
  · unfold copyfile at h2
    rw [PyM.bind_ok (PyM.getFS_run fs)] at h2
    rcases hc : fs.node src with _ | ⟨c⟩ | _ <;> rw [hc] at h2
    · simp at h2
    · simp only at h2
      split at h2
      · simp at h2
      · rename_i hne
        unfold writeText at h2
        split at h2
        · simp only [Prod.mk.injEq, true_and] at h2
          exact ⟨src, c, hsrc, hc, hne, h2.symm⟩
        · simp at h2
    · simp at h2
  · simp at h2

theorem r2s_setup_run {path : Str} {inp : Inputs F} {fs fs' : FS} (h : fispactSetup path inp fs = (.ok (), fs')) :
    ∃ (fs1 : FS) (src c : Str), (∀ q, ¬ Above path q → fs1.node q = fs.node q) ∧ inp.filesFile = .str src ∧ src ≠ path ++ p!"/FILES" ∧
      fs1.parentOk (path ++ p!"/collapse.i") = true ∧
      (((fs1.put (path ++ p!"/collapse.i") (.file (fileText (collapseLines 175)))).put (path ++ p!"/array.i") (.file (fileText arrayLines))).put
        (path ++ p!"/" ++ path ++ p!".i") (.file [])).node src = some (.file c) ∧
      ((fs1.put (path ++ p!"/collapse.i") (.file (fileText (collapseLines 175)))).put (path ++ p!"/array.i") (.file (fileText arrayLines))).canWrite
        (path ++ p!"/" ++ path ++ p!".i") = true ∧
      fs' = ((((fs1.put (path ++ p!"/collapse.i") (.file (fileText (collapseLines 175)))).put (path ++ p!"/array.i") (.file (fileText arrayLines))).put
        (path ++ p!"/" ++ path ++ p!".i") (.file [])).put (path ++ p!"/FILES") (.file c)).put (path ++ p!"/fluxes") (.file []) ∧ fs1 = (ensureDir path fs).2 := by
  unfold fispactSetup at h
  rw [pym_bind_ok] at h
  obtain ⟨_, fs1, h1, h⟩ := h
  have hfs1 : ∀ q, ¬ Above path q → fs1.node q = fs.node q := by
    intro q hq
    have := (ensureDir_touches path fs).2 q hq
    rw [h1] at this; exact this
  rw [pym_bind_ok] at h
  obtain ⟨⟨⟩, fs2, h2, h⟩ := h
  obtain ⟨rfl, hc1⟩ := writeLines_run h2
  rw [pym_bind_ok] at h
  obtain ⟨⟨⟩, fs3, h3, h⟩ := h
  obtain ⟨rfl, _⟩ := writeLines_run h3
  rw [pym_bind_ok] at h
  obtain ⟨⟨⟩, fs4, h4, h⟩ := h
  obtain ⟨rfl, hw⟩ := writeLines_run h4
  rw [pym_bind_ok] at h
  obtain ⟨⟨⟩, fs5, h5, h⟩ := h
  obtain ⟨src, c, hs, hn, hne, rfl⟩ := copy_run h5
  rw [pym_bind_ok] at h
  obtain ⟨⟨⟩, fs6, h6, h⟩ := h
  have h6' := congrArg (·.2) h6
  rw [(checkFilesFile_touches (S := fun _ => False) _).same] at h6'
  simp only at h6'
  subst h6'
  obtain ⟨rfl, _⟩ := writeLines_run h
  refine ⟨fs1, src, c, hfs1, hs, hne, ?_, hn, hw, rfl, by rw [h1]⟩
  unfold FS.canWrite at hc1
  simp only [Bool.and_eq_true] at hc1
  exact hc1.1.2

private theorem put_self (fs : FS) (p : Str) (n : Node) : (fs.put p n).node p = some n := if_pos rfl

private theorem put_ne (fs : FS) {p q : Str} (n : Node) (h : q ≠ p) : (fs.put p n).node q = fs.node q := if_neg h

/-- On success the two fixed files, the copy of the FILES file (a file that is none of those written) and the empty files are
    there. -/
theorem C109_success_partial {path : Str} {inp : Inputs F} {fs fs' : FS} (h : fispactSetup path inp fs = (.ok (), fs'))
    (h1 : path ≠ p!"collapse") (h2 : path ≠ p!"array") :
    fs'.node (path ++ p!"/collapse.i") = some (.file (fileText [p!"<< -----collapse cross section data----- >>", p!"CLOBBER", p!"GETXS 1 175",
      p!"FISPACT", p!"* COLLAPSE", p!"END", p!"* END OF RUN"])) ∧
    fs'.node (path ++ p!"/array.i") = some (.file (fileText [p!"<< -----condense decay data----- >>", p!"CLOBBER", p!"SPEK", p!"GETDECAY 1",
      p!"FISPACT", p!"* CONDENSE", p!"END", p!"* END OF RUN"])) ∧
    fs'.node (path ++ p!"/fluxes") = some (.file []) ∧ fs'.node (path ++ p!"/" ++ path ++ p!".i") = some (.file []) ∧
    ∃ src c, inp.filesFile = .str src ∧ fs'.node (path ++ p!"/FILES") = some (.file c) ∧
      (¬ FolderPart path src → fs.node src = some (.file c)) := by
  obtain ⟨fs1, src, c, hfs1, hs, hne, _, hn, _, rfl, -⟩ := r2s_setup_run h
  have ne : ∀ {a b : Str}, a ≠ b → path ++ a ≠ path ++ b := fun hab h' => hab (List.append_cancel_left h')
  have n1 : path ++ p!"/" ++ path ++ p!".i" ≠ path ++ p!"/collapse.i" := by
    rw [List.append_assoc, List.append_assoc]
    apply ne
    intro h'
    apply h1
    have : path ++ p!".i" = p!"collapse" ++ p!".i" := (List.cons.inj h').2
    exact List.append_cancel_right this
  have n2 : path ++ p!"/" ++ path ++ p!".i" ≠ path ++ p!"/array.i" := by
    rw [List.append_assoc, List.append_assoc]
    apply ne
    intro h'
    apply h2
    have : path ++ p!".i" = p!"array" ++ p!".i" := (List.cons.inj h').2
    exact List.append_cancel_right this
  have n3 : path ++ p!"/" ++ path ++ p!".i" ≠ path ++ p!"/FILES" := by
    rw [List.append_assoc, List.append_assoc]
    apply ne
    intro h'
    have := congrArg List.reverse h'
    simp at this
  have n4 : path ++ p!"/" ++ path ++ p!".i" ≠ path ++ p!"/fluxes" := by
    rw [List.append_assoc, List.append_assoc]
    apply ne
    intro h'
    have := congrArg List.reverse h'
    simp at this
  have e1 : path ++ p!"/collapse.i" ≠ path ++ p!"/fluxes" := ne (by decide)
  have e2 : path ++ p!"/collapse.i" ≠ path ++ p!"/FILES" := ne (by decide)
  have e3 : path ++ p!"/collapse.i" ≠ path ++ p!"/array.i" := ne (by decide)
  have e4 : path ++ p!"/array.i" ≠ path ++ p!"/fluxes" := ne (by decide)
  have e5 : path ++ p!"/array.i" ≠ path ++ p!"/FILES" := ne (by decide)
  have e6 : path ++ p!"/FILES" ≠ path ++ p!"/fluxes" := ne (by decide)
  refine ⟨?_, ?_, put_self _ _ _, ?_, src, c, hs, ?_, ?_⟩
  · rw [put_ne _ _ e1, put_ne _ _ e2, put_ne _ _ n1.symm, put_ne _ _ e3, put_self]; rfl
  · rw [put_ne _ _ e4, put_ne _ _ e5, put_ne _ _ n2.symm, put_self]; rfl
  · rw [put_ne _ _ n4, put_ne _ _ n3, put_self]
  · rw [put_ne _ _ e6, put_self]
  · intro hsrc
    have hin : ∀ s : Str, src ≠ path ++ '/' :: s := by
      rintro s rfl
      exact hsrc (Or.inr (Or.inl ⟨s, by simp⟩))
    rw [put_ne, put_ne _ _ (hin p!"array.i"), put_ne _ _ (hin p!"collapse.i"), hfs1] at hn
    · exact hn
    · rintro (h' | h')
      · exact hsrc (Or.inl h')
      · exact hsrc (Or.inr (Or.inr h'))
    · rw [List.append_assoc, List.append_assoc]; exact hin _

/-- The folder of a cell is neither "collapse" nor "array". -/
theorem C109_cell_folder (n : Int) : p!"cell" ++ intStr n ≠ p!"collapse" ∧ p!"cell" ++ intStr n ≠ p!"array" := by
  constructor <;> intro h
  · have := congrArg (fun l => l[1]?) h; simp at this
  · have := congrArg (fun l => l[0]?) h; simp at this

/-- A folder called "collapse": the collapse input is overwritten by the empty main input. -/
theorem C109_collapse_violated {inp : Inputs F} {fs fs' : FS} (h : fispactSetup p!"collapse" inp fs = (.ok (), fs')) :
    fs'.node p!"collapse/collapse.i" = some (.file []) := by
  obtain ⟨fs1, src, c, _, _, _, _, _, _, rfl, -⟩ := r2s_setup_run h
  rw [put_ne _ _ (by decide), put_ne _ _ (by decide)]
  exact put_self _ _ _

private theorem parent_append {a b : Str} (hb : '/' ∉ b) : parent (a ++ '/' :: b) = some a := by
  unfold parent
  have : (a ++ '/' :: b).reverse.dropWhile (· ≠ '/') = '/' :: a.reverse := by
    rw [List.reverse_append, List.reverse_cons, List.append_assoc, List.dropWhile_append_of_pos]
    · simp
    · intro c hc
      simp only [List.mem_reverse] at hc
      simp only [ne_eq, decide_not, Bool.not_eq_true', decide_eq_false_iff_not]
      rintro rfl; exact hb hc
  rw [this]
  simp

/-- A folder inside another folder always fails (the main input goes to `path/path.i`), unless a copy of that folder structure exists
    inside it. -/
theorem C109_nested_raises {d b : Str} (hb : '/' ∉ b) (hd : d ≠ []) (inp : Inputs F) (fs : FS)
    (hn : fs.node (d ++ p!"/" ++ b ++ p!"/" ++ d) ≠ some .dir) : ∃ e, (fispactSetup (d ++ p!"/" ++ b) inp fs).1 = .error e := by
  rcases hr : fispactSetup (d ++ p!"/" ++ b) inp fs with ⟨r, fs'⟩
  cases r with
  | error e => exact ⟨e, rfl⟩
  | ok u =>
    exfalso
    obtain ⟨fs1, src, c, hfs1, _, _, _, _, hw, _⟩ := r2s_setup_run hr
    unfold FS.canWrite at hw
    simp only [Bool.and_eq_true] at hw
    have hp := hw.1.2
    unfold FS.parentOk at hp
    have hpar : parent (d ++ p!"/" ++ b ++ p!"/" ++ (d ++ p!"/" ++ b) ++ p!".i") = some (d ++ p!"/" ++ b ++ p!"/" ++ d) := by
      have : d ++ p!"/" ++ b ++ p!"/" ++ (d ++ p!"/" ++ b) ++ p!".i" = (d ++ p!"/" ++ b ++ p!"/" ++ d) ++ '/' :: (b ++ p!".i") := by simp
      rw [this, parent_append]
      simp [hb]
    rw [hpar] at hp
    have hne : d ++ p!"/" ++ b ++ p!"/" ++ d ≠ [] := by simp [hd]
    split at hp
    · rename_i h; cases h
    · rename_i h; rw [Option.some.injEq] at h; exact hne h
    · rename_i x _ h
      rw [Option.some.injEq] at h
      subst h
      rw [decide_eq_true_eq] at hp
      have ne : ∀ {s : Str}, '/' ∉ s → d ++ p!"/" ++ b ++ p!"/" ++ d ≠ d ++ p!"/" ++ b ++ (p!"/" ++ s) → True := fun _ _ => trivial
      have hp' : ∀ (f : FS) (q : Str) (t : Str), (f.put q (.file t)).node (d ++ p!"/" ++ b ++ p!"/" ++ d) = some .dir → f.node (d ++ p!"/" ++ b ++ p!"/" ++ d) = some .dir := by
        intro f q t ht
        change (if _ = q then _ else _) = _ at ht
        split at ht
        · cases ht
        · exact ht
      have hp := hp' _ _ _ (hp' _ _ _ hp)
      rw [hfs1] at hp
      · exact hn hp
      · rintro (h | h)
        · have := congrArg List.length h; simp at this
        · have := h.length_le; simp at this

/-- A missing FILES file: FileNotFoundError, once the other files could be written. -/
theorem C109_missing_files {path src : Str} {inp : Inputs F} {fs : FS} (hs : inp.filesFile = .str src) (hs0 : src ≠ [])
    (hm : fs.node src = none) (hsrc : ¬ FolderPart path src) :
    ∃ e, (fispactSetup path inp fs).1 = .error e ∧
      (fs.node path = some .dir → path ≠ [] → '/' ∉ path → (∀ q, path ++ p!"/" <+: q → fs.perm q = true ∧ fs.node q ≠ some .dir) → e = .FileNotFoundError) := by
  rcases hr : fispactSetup path inp fs with ⟨r, fs'⟩
  cases r with
  | ok u =>
    exfalso
    obtain ⟨fs1, src', c, hfs1, hs', _, _, hn, _, _⟩ := r2s_setup_run hr
    rw [hs] at hs'
    cases hs'
    have hin : ∀ s : Str, src ≠ path ++ '/' :: s := by
      rintro s rfl
      exact hsrc (Or.inr (Or.inl ⟨s, by simp⟩))
    rw [put_ne, put_ne _ _ (hin p!"array.i"), put_ne _ _ (hin p!"collapse.i"), hfs1, hm] at hn
    · cases hn
    · rintro (h' | h')
      · exact hsrc (Or.inl h')
      · exact hsrc (Or.inr (Or.inr h'))
    · rw [List.append_assoc, List.append_assoc]; exact hin _
  | error e =>
    refine ⟨e, rfl, ?_⟩
    intro hdir hne hslash hperm
    have hsub : ∀ s : Str, path ++ p!"/" <+: path ++ p!"/" ++ s := fun s => List.prefix_append _ _
    have hpar : ∀ s : Str, '/' ∉ s → parent (path ++ p!"/" ++ s) = some path := by
      intro s hs
      have : path ++ p!"/" ++ s = path ++ '/' :: s := by simp
      rw [this, parent_append hs]
    have hpe : path ≠ path ++ p!"/" ++ p!"collapse.i" := by intro h; have := congrArg List.length h; simp at this
    have can : ∀ (f : FS) (s : Str), '/' ∉ s → f.perm = fs.perm → f.node path = some .dir → f.node (path ++ p!"/" ++ s) ≠ some .dir → f.canWrite (path ++ p!"/" ++ s) = true := by
      intro f s hs hfp hfd hfn
      unfold FS.canWrite FS.parentOk
      rw [hpar s hs, hfp, (hperm _ (hsub s)).1]
      split
      · rename_i h; cases h
      · rename_i h; rw [Option.some.injEq] at h; exact absurd h hne
      · rename_i h
        rw [Option.some.injEq] at h
        subst h
        simpa [hfd] using hfn
    have len : ∀ s : Str, path ≠ path ++ p!"/" ++ s := by intro s h; have := congrArg List.length h; simp at this
    have nd : ∀ (f : FS) (q t : Str), f.node q ≠ some .dir → ∀ p, (f.put p (.file t)).node q ≠ some .dir := by
      intro f q t hf p
      change (if q = p then _ else _) ≠ _
      split
      · simp
      · exact hf
    unfold fispactSetup at hr
    rw [PyM.bind_ok (fs' := fs) (a := ()) (by simp [ensureDir, hdir])] at hr
    have c1 := can fs p!"collapse.i" (by decide) rfl hdir (hperm _ (hsub _)).2
    have a1 : path ++ p!"/collapse.i" = path ++ p!"/" ++ p!"collapse.i" := by simp
    have a2 : path ++ p!"/array.i" = path ++ p!"/" ++ p!"array.i" := by simp
    have a3 : path ++ p!"/" ++ path ++ p!".i" = path ++ p!"/" ++ (path ++ p!".i") := by simp
    unfold writeCollapse writeArray writeFispact at hr
    rw [a1, PyM.bind_ok (writeLines_put _ c1)] at hr
    have c2 := can (fs.put (path ++ p!"/" ++ p!"collapse.i") (.file (fileText (collapseLines 175)))) p!"array.i" (by decide) rfl
      (by rw [put_ne _ _ (len _)]; exact hdir) (nd _ _ _ (hperm _ (hsub _)).2 _)
    rw [a2, PyM.bind_ok (writeLines_put _ c2)] at hr
    have c3 := can ((fs.put (path ++ p!"/" ++ p!"collapse.i") (.file (fileText (collapseLines 175)))).put (path ++ p!"/" ++ p!"array.i") (.file (fileText arrayLines)))
      (path ++ p!".i") (by simp [hslash]) rfl
      (by rw [put_ne _ _ (len _), put_ne _ _ (len _)]; exact hdir) (nd _ _ _ (nd _ _ _ (hperm _ (hsub _)).2 _) _)
    rw [a3, PyM.bind_ok (writeLines_put _ c3)] at hr
    have hin : ∀ s : Str, src ≠ path ++ p!"/" ++ s := by
      rintro s rfl
      exact hsrc (Or.inr (Or.inl ⟨s, rfl⟩))
    have hcopy : ∀ f : FS, f.node src = none → copyFilesFile inp path f = (.error .FileNotFoundError, f) := by
      intro f hf
      unfold copyFilesFile
      rw [hs, PyM.bind_ok (m := PyM.lift (asPath (Json.str src))) (fs' := f) (a := src) rfl, PyM.bind_ok (PyM.getFS_run f)]
      have : pathExists f src = false := by simp [pathExists, hf, hs0]
      simp [this]
    rw [PyM.bind_err (hcopy _ (by
      rw [put_ne _ _ (hin _), put_ne _ _ (hin _), put_ne _ _ (hin _)]; exact hm))] at hr
    simp only [Prod.mk.injEq, Except.error.injEq] at hr
    exact hr.1.symm

/-- Two existing empty folders: the hypotheses can be met. -/
example : ∃ fs : FS, fs.node p!"cell1" = some .dir ∧ fs.node p!"files" = none ∧ ¬ FolderPart p!"cell1" p!"files" := by
  refine ⟨⟨fun q => if q = p!"cell1" then some .dir else none, fun _ => true⟩, by simp, by decide, ?_⟩
  rintro (h | h | h)
  · exact absurd h (by decide)
  · exact absurd h (by decide)
  · exact absurd h (by decide)

end Props
