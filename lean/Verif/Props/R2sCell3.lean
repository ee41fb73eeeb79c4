/-
Further properties of r2s_cell.py: when the folder of a cell is made, when the set-up succeeds, and what the program raises.
-/
import Verif.Props.R2sCell
import Verif.Props.Misc

set_option linter.unusedSimpArgs false
set_option linter.unusedSectionVars false

namespace Props
open Py NeutUtilities R2sCell

variable {F : Type}

private theorem parent_len {p d : Str} (h : parent p = some d) : d.length < p.length := by
  unfold parent at h
  have hl := (List.dropWhile_sublist (fun c : Char => decide (c ≠ '/')) (l := p.reverse)).length_le
  split at h
  · cases h
  · rename_i c r he
    cases h
    rw [he] at hl
    simp at hl ⊢
    omega

private theorem parentOk_iff (fs : FS) (p : Str) : fs.parentOk p = true ↔ ∀ d, parent p = some d → d ≠ [] → fs.node d = some .dir := by
  unfold FS.parentOk
  cases h : parent p with
  | none => simp
  | some d =>
    cases d with
    | nil => simp
    | cons c d => simp

/-- `os.mkdir` makes the directory or raises OSError. -/
private theorem mkdir_run (p : Str) (fs : FS) :
    (fs.node p = none ∧ fs.perm p = true ∧ (∀ d, parent p = some d → d ≠ [] → fs.node d = some .dir) ∧ mkdir p fs = (.ok (), fs.put p .dir)) ∨
    (¬ (fs.node p = none ∧ fs.perm p = true ∧ ∀ d, parent p = some d → d ≠ [] → fs.node d = some .dir) ∧ mkdir p fs = (.error .OSError, fs)) := by
  unfold mkdir
  rw [← parentOk_iff]
  by_cases h : fs.node p = none ∧ fs.perm p = true ∧ fs.parentOk p = true
  · left; exact ⟨h.1, h.2.1, h.2.2, by simp [h]⟩
  · right
    refine ⟨h, ?_⟩
    rw [if_neg]
    simpa [Option.isNone_iff_eq_none, and_assoc] using h

/-- Only missing directories on the way to `p` are made, and they may be made. -/
private def Made (p : Str) (fs fs' : FS) : Prop :=
  fs'.perm = fs.perm ∧ ∀ q, fs'.node q = fs.node q ∨ (LeadsTo p q ∧ fs.node q = none ∧ fs.perm q = true ∧ fs'.node q = some .dir)

private theorem Made.trans {p : Str} {a b c : FS} (h1 : Made p a b) (h2 : Made p b c) : Made p a c := by
  refine ⟨h2.1.trans h1.1, fun q => ?_⟩
  rcases h1.2 q with e1 | ⟨a1, b1, d1, c1⟩
  · rcases h2.2 q with e2 | ⟨a2, b2, d2, c2⟩
    · exact .inl (e2.trans e1)
    · exact .inr ⟨a2, by rw [← e1]; exact b2, by rw [← h1.1]; exact d2, c2⟩
  · rcases h2.2 q with e2 | ⟨a2, b2, _, c2⟩
    · exact .inr ⟨a1, b1, d1, by rw [e2]; exact c1⟩
    · rw [c1] at b2; cases b2

private theorem mkdir_made (p : Str) (fs : FS) : Made p fs (mkdir p fs).2 ∧
    (∀ e, (mkdir p fs).1 = .error e → e = .OSError) ∧ ((mkdir p fs).1 = .ok () → fs.perm p = true ∧ (mkdir p fs).2.node p = some .dir) := by
  rcases mkdir_run p fs with ⟨h1, h2, h3, h⟩ | ⟨_, h⟩
  · rw [h]
    refine ⟨⟨rfl, fun q => ?_⟩, (fun e he => by cases he), fun _ => ⟨h2, put_self⟩⟩
    by_cases hq : q = p
    · subst hq; right; exact ⟨.self _, h1, h2, put_self⟩
    · left; exact put_other hq
  · rw [h]
    exact ⟨⟨rfl, fun _ => .inl rfl⟩, (fun e he => by cases he; rfl), fun he => by cases he⟩

private theorem makedirs_eq (n : Nat) (p : Str) (fs : FS) :
    (∃ d, parent p = some d ∧ d ≠ [] ∧ fs.node d = none ∧
      makedirs (n + 1) p fs = match makedirs n d fs with
        | (.ok _, fs') => mkdir p fs'
        | (.error e, fs') => (.error e, fs')) ∨
    ((∀ d, parent p = some d → d ≠ [] → fs.node d ≠ none) ∧ makedirs (n + 1) p fs = mkdir p fs) := by
  have hdef : makedirs (n + 1) p fs = (match parent p with
      | some d => (if !d.isEmpty && (fs.node d).isNone then makedirs n d else pure ()) >>= fun _ => mkdir p
      | none => mkdir p) fs := by
    rw [makedirs, PyM.bind_ok (PyM.getFS_run fs)]
    rfl
  rw [hdef]
  cases hp : parent p with
  | none => right; exact ⟨by simp, rfl⟩
  | some d =>
    simp only
    by_cases h : d ≠ [] ∧ fs.node d = none
    · left
      refine ⟨d, rfl, h.1, h.2, ?_⟩
      rw [if_pos (by simp [h.1, h.2]), PyM.bind_run]
      rcases makedirs n d fs with ⟨r, fs'⟩
      cases r <;> rfl
    · right
      refine ⟨?_, ?_⟩
      · rintro d' hd' hne hnone
        cases hd'
        exact h ⟨hne, hnone⟩
      · rw [if_neg]
        · rfl
        · intro hc
          simp at hc
          exact h hc

private theorem makedirs_made : ∀ (fuel : Nat) (p : Str) (fs : FS),
    Made p fs (makedirs fuel p fs).2 ∧ (∀ e, (makedirs fuel p fs).1 = .error e → e = .OSError) ∧
      ((makedirs fuel p fs).1 = .ok () → fs.perm p = true ∧ (makedirs fuel p fs).2.node p = some .dir) := by
  intro fuel
  induction fuel with
  | zero => intro p fs; exact ⟨⟨rfl, fun _ => .inl rfl⟩, (fun e he => by cases he; rfl), fun he => by cases he⟩
  | succ n ih =>
    intro p fs
    rcases makedirs_eq n p fs with ⟨d, hp, hd, hn, h⟩ | ⟨_, h⟩
    · rw [h]
      obtain ⟨g, k, _⟩ := ih d fs
      have g' : Made p fs (makedirs n d fs).2 := ⟨g.1, fun q => (g.2 q).imp id (fun ⟨x, y⟩ => ⟨.up hp hd x, y⟩)⟩
      rcases hr : makedirs n d fs with ⟨r, fs2⟩
      rw [hr] at g' k
      cases r with
      | ok u =>
        simp only
        obtain ⟨g2, k2, l2⟩ := mkdir_made p fs2
        exact ⟨g'.trans g2, k2, fun hok => ⟨by rw [← g'.1]; exact (l2 hok).1, (l2 hok).2⟩⟩
      | error e => exact ⟨g', k, fun he => by cases he⟩
    · rw [h]; exact mkdir_made p fs

/-- The folder of a cell: a call that returns leaves something at the path (a directory if there was nothing); nothing that existed is
    changed; only missing directories leading to the path are made, and only where this is permitted; the only exception is OSError. -/
theorem C109_folder (p : Str) (fs : FS) :
    ((ensureDir p fs).1 = .ok () → (ensureDir p fs).2.node p = match fs.node p with | none => some .dir | some n => some n) ∧
    (∀ q n, fs.node q = some n → (ensureDir p fs).2.node q = some n) ∧
    (∀ q, (ensureDir p fs).2.node q ≠ fs.node q → LeadsTo p q ∧ fs.perm q = true ∧ (ensureDir p fs).2.node q = some .dir) ∧
    (∀ e, (ensureDir p fs).1 = .error e → e = .OSError) ∧
    (fs.node p ≠ none → ensureDir p fs = (.ok (), fs)) ∧
    (fs.node p = none → fs.perm p = false → (ensureDir p fs).1 = .error .OSError) := by
  cases hp : fs.node p with
  | some n =>
    have : ensureDir p fs = (.ok (), fs) := by simp [ensureDir, hp]
    rw [this]
    exact ⟨fun _ => hp, fun _ _ h => h, fun q h => absurd rfl h, (fun e he => by cases he), fun _ => rfl, fun h => by cases h⟩
  | none =>
    have : ensureDir p fs = makedirs (p.length + 1) p fs := by simp [ensureDir, hp]
    rw [this]
    obtain ⟨g, k, l⟩ := makedirs_made (p.length + 1) p fs
    refine ⟨fun h => (l h).2, fun q n hq => ?_, fun q hq => ?_, k, fun h => absurd rfl h, fun _ hperm => ?_⟩
    · rcases g.2 q with e | ⟨_, e, _⟩
      · exact e.trans hq
      · rw [hq] at e; cases e
    · rcases g.2 q with e | ⟨a, _, b, e⟩
      · exact absurd e hq
      · exact ⟨a, b, e⟩
    · rcases hr : makedirs (p.length + 1) p fs with ⟨r, fs'⟩
      rw [hr] at k l
      cases r with
      | error e => simp only at k ⊢; rw [k e rfl]
      | ok u => have := (l rfl).1; rw [hperm] at this; cases this

/-- The folder is made whenever no file is in the way and the missing directories may be made. -/
theorem C109_folder_made (p : Str) (fs : FS) (hf : ∀ q c, LeadsTo p q → fs.node q ≠ some (.file c))
    (hp : ∀ q, LeadsTo p q → fs.node q = none → fs.perm q = true) :
    (ensureDir p fs).1 = .ok () ∧ (ensureDir p fs).2.node p = some .dir := by
  have key : ∀ (fuel : Nat) (p : Str) (fs : FS), p.length < fuel → fs.node p = none → (∀ q c, LeadsTo p q → fs.node q ≠ some (.file c)) →
      (∀ q, LeadsTo p q → fs.node q = none → fs.perm q = true) → (makedirs fuel p fs).1 = .ok () := by
    intro fuel
    induction fuel with
    | zero => intro p fs h; omega
    | succ n ih =>
      intro p fs hl h0 hf hp
      have fin : ∀ fs2 : FS, fs2.node p = none → fs2.perm p = true → (∀ d, parent p = some d → d ≠ [] → fs2.node d = some .dir) →
          (mkdir p fs2).1 = .ok () := by
        intro fs2 a b c
        rcases mkdir_run p fs2 with ⟨_, _, _, h⟩ | ⟨h, _⟩
        · rw [h]
        · exact absurd ⟨a, b, c⟩ h
      rcases makedirs_eq n p fs with ⟨d, hpar, hd, hn, h⟩ | ⟨hall, h⟩
      · rw [h]
        have hlen := parent_len hpar
        have hok := ih d fs (by omega) hn (fun q c hq => hf q c (.up hpar hd hq)) (fun q hq => hp q (.up hpar hd hq))
        obtain ⟨g, _, l⟩ := makedirs_made n d fs
        rcases hr : makedirs n d fs with ⟨r, fs2⟩
        rw [hr] at hok g l
        simp only at hok g l
        rw [hok]
        have notp : ∀ (a b : Str), LeadsTo a b → b.length ≤ a.length := by
          intro a b hab
          induction hab with
          | self => exact le_refl _
          | up h1 _ _ ih => have := parent_len h1; omega
        apply fin
        · rcases g.2 p with e | ⟨e, _⟩
          · rw [e]; exact h0
          · have := notp _ _ e; omega
        · rw [g.1]; exact hp p (.self p) h0
        · intro d' hd' _
          rw [hpar] at hd'
          cases hd'
          exact (l hok).2
      · rw [h]
        apply fin _ h0 (hp p (.self p) h0)
        intro d hd hne
        cases hx : fs.node d with
        | none => exact absurd hx (hall d hd hne)
        | some nd =>
          cases nd with
          | dir => rfl
          | file c => exact absurd hx (hf d c (.up hd hne (.self d)))
  have h1 : (ensureDir p fs).1 = .ok () := by
    cases h0 : fs.node p with
    | some n => rw [(C109_folder p fs).2.2.2.2.1 (by rw [h0]; simp)]
    | none =>
      have : ensureDir p fs = makedirs (p.length + 1) p fs := by simp [ensureDir, h0]
      rw [this]
      exact key _ p fs (by omega) h0 hf hp
  refine ⟨h1, ?_⟩
  rw [(C109_folder p fs).1 h1]
  cases h0 : fs.node p with
  | none => rfl
  | some n =>
    cases n with
    | dir => rfl
    | file c => exact absurd h0 (hf p c (.self p))

private def blankFS : FS := ⟨fun _ => none, fun _ => true⟩

example : (ensureDir p!"a/b" blankFS).1 = .ok () ∧ (ensureDir p!"a/b" blankFS).2.node p!"a" = some .dir ∧
    (ensureDir p!"a/b" blankFS).2.node p!"b" = none := by decide +kernel

/-! ### Success of the set-up -/

/-- The folder is there and its entries are writable files or missing. -/
private def Ready (path : Str) (fs : FS) : Prop :=
  fs.node path = some .dir ∧ ∀ q, path ++ p!"/" <+: q → fs.perm q = true ∧ fs.node q ≠ some .dir

private theorem parent_in {a b : Str} (hb : '/' ∉ b) : parent (a ++ p!"/" ++ b) = some a := by
  have e : a ++ p!"/" ++ b = a ++ '/' :: b := by simp
  rw [e]
  unfold parent
  have : (a ++ '/' :: b).reverse.dropWhile (· ≠ '/') = '/' :: a.reverse := by
    rw [List.reverse_append, List.reverse_cons, List.append_assoc, List.dropWhile_append_of_pos]
    · simp
    · intro c hc
      simp only [List.mem_reverse] at hc
      simp only [ne_eq, decide_not, Bool.not_eq_true', decide_eq_false_iff_not]
      rintro rfl; exact hb hc
  rw [this]
  simp

private theorem Ready.can {path : Str} {fs : FS} (h : Ready path fs) {b : Str} (hb : '/' ∉ b) : fs.canWrite (path ++ p!"/" ++ b) = true := by
  obtain ⟨h1, h2⟩ := h
  obtain ⟨h3, h4⟩ := h2 (path ++ p!"/" ++ b) (List.prefix_append _ _)
  have h5 : fs.parentOk (path ++ p!"/" ++ b) = true := by
    rw [parentOk_iff]
    intro d hd _
    rw [parent_in hb] at hd
    cases hd
    exact h1
  unfold FS.canWrite
  rw [h3, h5]
  simpa using h4

private theorem Ready.put {path : Str} {fs : FS} (h : Ready path fs) (b c : Str) : Ready path (fs.put (path ++ p!"/" ++ b) (.file c)) := by
  refine ⟨?_, fun q hq => ⟨(h.2 q hq).1, ?_⟩⟩
  · rw [put_other]
    · exact h.1
    · intro e
      have := congrArg List.length e
      simp at this
  · by_cases e : q = path ++ p!"/" ++ b
    · rw [e, put_self]; simp
    · rw [put_other e]; exact (h.2 q hq).2

private theorem writeLines_in {path : Str} {fs : FS} (h : Ready path fs) {b : Str} (hb : '/' ∉ b) (ls : List Str) :
    ∃ c, writeLines (path ++ p!"/" ++ b) ls fs = (.ok (), fs.put (path ++ p!"/" ++ b) (.file c)) :=
  ⟨_, writeLines_ok ls (h.can hb)⟩

/-- The set-up of a cell succeeds whenever the folder (a plain name) is there or may be made, its entries may be written, and the FILES
    file is a file outside the folder. -/
theorem C109_setup_succeeds (path src c : Str) (inp : Inputs F) (fs : FS) (hne : path ≠ []) (hslash : '/' ∉ path)
    (hdir : fs.node path = some .dir ∨ (fs.node path = none ∧ fs.perm path = true))
    (hin : ∀ q, path ++ p!"/" <+: q → fs.perm q = true ∧ fs.node q ≠ some .dir)
    (hs : inp.filesFile = .str src) (hc : fs.node src = some (.file c)) (hsrc : ¬ path ++ p!"/" <+: src) :
    (fispactSetup path inp fs).1 = .ok () := by
  have hnopar : parent path = none := by
    unfold parent
    have : path.reverse.dropWhile (· ≠ '/') = [] := by
      rw [List.dropWhile_eq_nil_iff]
      intro x hx
      simp only [List.mem_reverse] at hx
      simp only [ne_eq, decide_not, Bool.not_eq_true', decide_eq_false_iff_not]
      rintro rfl; exact hslash hx
    rw [this]
  have hself : ∀ q, LeadsTo path q → q = path := by
    intro q hq
    cases hq with
    | self => rfl
    | up h _ _ => rw [hnopar] at h; cases h
  obtain ⟨e1, e2⟩ := C109_folder_made path fs
    (by
      intro q c' hq
      rw [hself q hq]
      rcases hdir with h | h
      · rw [h]; simp
      · rw [h.1]; simp)
    (by
      intro q hq hn
      rw [hself q hq] at hn ⊢
      rcases hdir with h | h
      · rw [h] at hn; cases hn
      · exact h.2)
  have hsp : src ≠ path := by
    rintro rfl
    rcases hdir with h | h
    · rw [hc] at h; cases h
    · rw [hc] at h; cases h.1
  obtain ⟨fs1, hfs1⟩ : ∃ fs1, ensureDir path fs = (.ok (), fs1) := ⟨_, by rw [← e1]⟩
  rw [hfs1] at e2
  have hothers : ∀ q, q ≠ path → fs1.node q = fs.node q := by
    intro q hq
    by_contra hx
    have := (C109_folder path fs).2.2.1 q
    rw [hfs1] at this
    exact hq (hself q (this hx).1)
  have hperm : fs1.perm = fs.perm := by
    by_cases h0 : fs.node path = none
    · have : ensureDir path fs = makedirs (path.length + 1) path fs := by simp [ensureDir, h0]
      have h := (makedirs_made (path.length + 1) path fs).1.1
      rw [← this, hfs1] at h
      exact h
    · rw [(C109_folder path fs).2.2.2.2.1 h0] at hfs1
      cases hfs1; rfl
  have r1 : Ready path fs1 := by
    refine ⟨e2, fun q hq => ?_⟩
    rw [hperm, hothers q]
    · exact hin q hq
    · rintro rfl
      have := hq.length_le
      simp at this
  have hcs : fs1.node src = some (.file c) := by rw [hothers src hsp]; exact hc
  have keep : ∀ (f : FS) (b t : Str), f.node src = some (.file c) → (f.put (path ++ p!"/" ++ b) (.file t)).node src = some (.file c) := by
    intro f b t hf
    rw [put_other]
    · exact hf
    · rintro rfl
      exact hsrc (List.prefix_append _ _)
  unfold fispactSetup writeCollapse writeArray writeFispact writeFluxes
  rw [PyM.bind_ok hfs1]
  have a1 : path ++ p!"/collapse.i" = path ++ p!"/" ++ p!"collapse.i" := by simp
  have a2 : path ++ p!"/array.i" = path ++ p!"/" ++ p!"array.i" := by simp
  have a3 : path ++ p!"/" ++ path ++ p!".i" = path ++ p!"/" ++ (path ++ p!".i") := by simp
  have a4 : path ++ p!"/FILES" = path ++ p!"/" ++ p!"FILES" := by simp
  have a5 : path ++ p!"/fluxes" = path ++ p!"/" ++ p!"fluxes" := by simp
  rw [a1, a2, a3, a4, a5]
  obtain ⟨t1, w1⟩ := writeLines_in r1 (b := p!"collapse.i") (by decide) (collapseLines 175)
  rw [PyM.bind_ok w1]
  have r2 := r1.put p!"collapse.i" t1
  have k2 := keep fs1 p!"collapse.i" t1 hcs
  revert r2 k2
  generalize fs1.put (path ++ p!"/" ++ p!"collapse.i") (.file t1) = fs2
  intro r2 k2
  obtain ⟨t2, w2⟩ := writeLines_in r2 (b := p!"array.i") (by decide) arrayLines
  rw [PyM.bind_ok w2]
  have r3 := r2.put p!"array.i" t2
  have k3 := keep fs2 p!"array.i" t2 k2
  revert r3 k3
  generalize fs2.put (path ++ p!"/" ++ p!"array.i") (.file t2) = fs3
  intro r3 k3
  obtain ⟨t3, w3⟩ := writeLines_in r3 (b := path ++ p!".i") (by simp [hslash]) []
  rw [PyM.bind_ok w3]
  have r4 := r3.put (path ++ p!".i") t3
  have k4 := keep fs3 (path ++ p!".i") t3 k3
  revert r4 k4
  generalize fs3.put (path ++ p!"/" ++ (path ++ p!".i")) (.file t3) = fs4
  intro r4 k4
  have hcopy : copyFilesFile inp path fs4 = (.ok (), fs4.put (path ++ p!"/" ++ p!"FILES") (.file c)) := by
    unfold copyFilesFile
    rw [hs, PyM.bind_ok (m := PyM.lift (asPath (Json.str src))) (fs' := fs4) (a := src) rfl, PyM.bind_ok (PyM.getFS_run fs4),
      if_pos (by simp [pathExists, k4])]
    unfold copyfile
    rw [PyM.bind_ok (PyM.getFS_run fs4), k4, a4]
    simp only
    rw [if_neg]
    · unfold writeText
      rw [if_pos (r4.can (by decide))]
    · rintro rfl; exact hsrc (List.prefix_append _ _)
  rw [PyM.bind_ok hcopy]
  have r5 := r4.put p!"FILES" c
  have k5 : (fs4.put (path ++ p!"/" ++ p!"FILES") (.file c)).node (path ++ p!"/" ++ p!"FILES") = some (.file c) := put_self
  revert r5 k5
  generalize fs4.put (path ++ p!"/" ++ p!"FILES") (.file c) = fs5
  intro r5 k5
  have hcheck : checkFilesFile (path ++ p!"/" ++ p!"FILES") fs5 = (.ok (), fs5) := by
    unfold checkFilesFile
    rw [PyM.bind_ok (PyM.getFS_run fs5), if_pos (by unfold pathExists; rw [k5]; simp)]
    rfl
  rw [PyM.bind_ok hcheck]
  obtain ⟨t6, w6⟩ := writeLines_in r5 (b := p!"fluxes") (by decide) []
  rw [w6]

/-- A file system with one FILES file in the current directory: the hypotheses can be met. -/
example : ∃ fs : FS, fs.node p!"cell12" = none ∧ fs.perm p!"cell12" = true ∧ fs.node p!"FILES" = some (.file p!"ab") ∧
    (fispactSetup p!"cell12" ({ filesFile := .str p!"FILES" } : Inputs ℚ) fs).1 = .ok () ∧
    (fispactSetup p!"cell12" ({ filesFile := .str p!"FILES" } : Inputs ℚ) fs).2.node p!"cell12/FILES" = some (.file p!"ab") := by
  refine ⟨⟨fun q => if q = p!"FILES" then some (.file p!"ab") else none, fun _ => true⟩, by decide, rfl, by decide, ?_, ?_⟩
  · apply C109_setup_succeeds p!"cell12" p!"FILES" p!"ab" <;> first | exact Or.inr ⟨by decide, rfl⟩ | rfl | decide | skip
    intro q hq
    refine ⟨rfl, ?_⟩
    simp only
    split <;> simp
  · decide +kernel

/-- What copying the FILES file raises: a name that is no text, a missing file, a directory or the file itself. -/
theorem C109_copy_errors (inp : Inputs F) (path : Str) (fs : FS) :
    ((∀ s, inp.filesFile ≠ .str s) → copyFilesFile inp path fs = (.error .TypeError, fs)) ∧
    (∀ s, inp.filesFile = .str s → s ≠ [] → fs.node s = none → copyFilesFile inp path fs = (.error .FileNotFoundError, fs)) ∧
    (∀ s, inp.filesFile = .str s → fs.node s = some .dir → copyFilesFile inp path fs = (.error .OSError, fs)) ∧
    (∀ s c, inp.filesFile = .str s → fs.node s = some (.file c) → s = path ++ p!"/FILES" → copyFilesFile inp path fs = (.error .OSError, fs)) ∧
    (∀ q, (fs.node q = none → q ≠ [] → checkFilesFile q fs = (.error .FileNotFoundError, fs)) ∧ (fs.node q ≠ none → checkFilesFile q fs = (.ok (), fs))) := by
  have run : ∀ s, inp.filesFile = .str s → copyFilesFile inp path fs = (if pathExists fs s then copyfile s (path ++ p!"/FILES") else PyM.raise .FileNotFoundError) fs := by
    intro s hs
    unfold copyFilesFile
    rw [hs, PyM.bind_ok (m := PyM.lift (asPath (Json.str s))) (fs' := fs) (a := s) rfl, PyM.bind_ok (PyM.getFS_run fs)]
  refine ⟨fun h => ?_, fun s hs hne hn => ?_, fun s hs hn => ?_, fun s c hs hn he => ?_, fun q => ⟨fun hn hq => ?_, fun hn => ?_⟩⟩
  · unfold copyFilesFile
    apply PyM.bind_err
    have : asPath inp.filesFile = .error .TypeError := by
      cases hf : inp.filesFile with
      | str s => exact absurd hf (h s)
      | _ => rfl
    rw [this]; rfl
  · rw [run s hs, if_neg (by simp [pathExists, hn, hne])]; rfl
  · rw [run s hs, if_pos (by simp [pathExists, hn])]
    unfold copyfile
    rw [PyM.bind_ok (PyM.getFS_run fs), hn]; rfl
  · rw [run s hs, if_pos (by simp [pathExists, hn])]
    unfold copyfile
    rw [PyM.bind_ok (PyM.getFS_run fs), hn]
    simp only
    rw [if_pos he]; rfl
  · unfold checkFilesFile
    rw [PyM.bind_ok (PyM.getFS_run fs), if_neg (by simp [pathExists, hn, hq])]; rfl
  · unfold checkFilesFile
    rw [PyM.bind_ok (PyM.getFS_run fs), if_pos (by simp [pathExists, Option.isSome_iff_ne_none, hn])]; rfl

/-! ### C106, C111: rejected configurations -/

/-- A configuration that is no JSON object raises AttributeError. -/
theorem C106_no_object (v : Json F) (h : ∀ d, v ≠ .obj d) : fromConfig v = .error .AttributeError := by
  cases v with
  | obj d => exact absurd rfl (h d)
  | _ => rfl

variable [LinearOrder F] (flt : Str → Option F) (minusOne : F) (enum : List Str → List Str)

/-- Another code than MCNP raises NotImplementedError, a code that is no text AttributeError; nothing is changed. MCNP in any case is
    accepted: the program goes on to the MCNP output. -/
theorem C111_code (json : Str → Except Err (Json F)) (enumI : List Int → List Int) (config : Str) (inp : Inputs F) (fs : FS)
    (h : readConfig json config fs = (.ok inp, fs)) :
    (∀ s, inp.mcCode = .str s → upper s ≠ p!"MCNP" → main flt minusOne enum json enumI config fs = (.error .NotImplementedError, fs)) ∧
    ((∀ s, inp.mcCode ≠ .str s) → main flt minusOne enum json enumI config fs = (.error .AttributeError, fs)) ∧
    (∀ s, inp.mcCode = .str s → upper s = p!"MCNP" → inp.mcOutput = none →
      main flt minusOne enum json enumI config fs = (.error .AttributeError, fs)) ∧
    (∀ s o, inp.mcCode = .str s → upper s = p!"MCNP" → inp.mcOutput = some (.str o) → o ≠ [] → fs.node o = none →
      main flt minusOne enum json enumI config fs = (.error .FileNotFoundError, fs)) := by
  have run : ∀ b, isMcnp inp.mcCode = .ok b → main flt minusOne enum json enumI config fs =
      (if b then (do
        let r ← readDataFromMcnpOutput flt minusOne enum inp
        let _ ← readDataFromMcnpInput flt enumI inp r.1
        setupCells inp r.1) else PyM.raise .NotImplementedError) fs := by
    intro b hb
    unfold main
    rw [PyM.bind_ok h, hb, PyM.bind_ok (m := PyM.lift (Except.ok b)) (a := b) (fs' := fs) rfl]
  refine ⟨fun s hs hu => ?_, fun hs => ?_, fun s hs hu ho => ?_, fun s o hs hu ho hne hn => ?_⟩
  · rw [run false (by rw [hs]; simp [isMcnp, hu])]; rfl
  · unfold main
    rw [PyM.bind_ok h]
    apply PyM.bind_err
    have : isMcnp inp.mcCode = .error .AttributeError := by
      cases hf : inp.mcCode with
      | str s => exact absurd hf (hs s)
      | _ => rfl
    rw [this]; rfl
  · rw [run true (by rw [hs]; simp [isMcnp, hu]), if_pos rfl]
    apply PyM.bind_err
    unfold readDataFromMcnpOutput
    rw [ho]
    exact PyM.bind_err (m := PyM.lift _) rfl
  · rw [run true (by rw [hs]; simp [isMcnp, hu]), if_pos rfl]
    apply PyM.bind_err
    unfold readDataFromMcnpOutput
    rw [ho, PyM.bind_ok (m := PyM.lift (orErr .AttributeError (some (Json.str o)))) (a := Json.str o) (fs' := fs) rfl,
      PyM.bind_ok (m := PyM.lift (asPath (Json.str o))) (a := o) (fs' := fs) rfl, PyM.bind_ok (PyM.getFS_run fs),
      if_neg (by simp [pathExists, hn, hne])]
    rfl

example : upper p!"mcnp" = p!"MCNP" ∧ upper p!"Serpent" ≠ p!"MCNP" := by decide

end Props
