/- Property C239: the whole activation run of r2s_cell.py. -/
import Verif.Props.R2sCell2
import Verif.Props.R2sCell4
import Verif.Proofs.NatStr

set_option linter.unusedSectionVars false
set_option linter.unusedSimpArgs false

namespace Props
open Py NeutUtilities R2sCell

variable {F : Type}

/-- The folder of a cell. -/
def cellFolder (n : Int) : Str := p!"cell" ++ intStr n

/-- What the set-up of a cell leaves: the folder with the collapse and array inputs, the copy `c` of the FILES file and the two files that
    are still empty. -/
structure CellReady (c : Str) (n : Int) (fs : FS) : Prop where
  dir : fs.node (cellFolder n) = some .dir
  collapse : fs.node (cellFolder n ++ p!"/collapse.i") = some (.file (fileText [p!"<< -----collapse cross section data----- >>", p!"CLOBBER",
    p!"GETXS 1 175", p!"FISPACT", p!"* COLLAPSE", p!"END", p!"* END OF RUN"]))
  array : fs.node (cellFolder n ++ p!"/array.i") = some (.file (fileText [p!"<< -----condense decay data----- >>", p!"CLOBBER", p!"SPEK",
    p!"GETDECAY 1", p!"FISPACT", p!"* CONDENSE", p!"END", p!"* END OF RUN"]))
  input : fs.node (cellFolder n ++ p!"/" ++ cellFolder n ++ p!".i") = some (.file [])
  files : fs.node (cellFolder n ++ p!"/FILES") = some (.file c)
  fluxes : fs.node (cellFolder n ++ p!"/fluxes") = some (.file [])

private theorem intStr_noslash (n : Int) : '/' ∉ intStr n := by
  have h0 : ∀ k : Nat, '/' ∉ natStr k := fun k h => absurd (natStr_isDigit h) (by decide)
  unfold intStr
  cases n with
  | ofNat n => intro h; exact h0 n (by simpa using h)
  | negSucc n => intro h; simp at h; exact h0 _ h

theorem r2s_folder_noslash (n : Int) : '/' ∉ cellFolder n := by
  unfold cellFolder
  rw [List.mem_append, not_or]
  exact ⟨by decide, intStr_noslash n⟩

private theorem intStr_injective {a b : Int} (h : intStr a = intStr b) : a = b := by
  have hd : ∀ k : Nat, '-' ∉ natStr k := fun k h => absurd (natStr_isDigit h) (by decide)
  unfold intStr at h
  cases a with
  | ofNat a =>
    cases b with
    | ofNat b => exact congrArg Int.ofNat (natStr_inj (by simpa using h))
    | negSucc b =>
      exfalso
      apply hd a
      have : natStr a = '-' :: natStr (b + 1) := by simpa using h
      rw [this]; simp
  | negSucc a =>
    cases b with
    | ofNat b =>
      exfalso
      apply hd b
      have : '-' :: natStr (a + 1) = natStr b := by simpa using h
      rw [← this]; simp
    | negSucc b =>
      have : natStr (a + 1) = natStr (b + 1) := by simpa using h
      have := natStr_inj this
      have : a = b := by omega
      rw [this]

private theorem folder_inj {a b : Int} (h : cellFolder a = cellFolder b) : a = b := intStr_injective (List.append_cancel_left h)

private theorem slash_prefix {a b s : Str} (ha : '/' ∉ a) (hb : '/' ∉ b) (h : a ++ p!"/" <+: b ++ p!"/" ++ s) : a = b := by
  obtain ⟨r, hr⟩ := h
  have e : (a ++ '/' :: r).takeWhile (· ≠ '/') = (b ++ '/' :: s).takeWhile (· ≠ '/') := by
    have : a ++ '/' :: r = b ++ '/' :: s := by simpa using hr
    rw [this]
  have tk : ∀ (l t : Str), '/' ∉ l → (l ++ '/' :: t).takeWhile (· ≠ '/') = l := by
    intro l t hl
    rw [List.takeWhile_append_of_pos]
    · simp
    · intro x hx
      simp only [ne_eq, decide_not, Bool.not_eq_true', decide_eq_false_iff_not]
      rintro rfl
      exact hl hx
  rw [tk _ _ ha, tk _ _ hb] at e
  exact e

/-- The folders of different cells have nothing in common. -/
private theorem other_inside {a b : Int} (h : a ≠ b) (s : Str) : ¬ FolderPart (cellFolder a) (cellFolder b ++ p!"/" ++ s) := by
  rintro (e | e | e)
  · apply r2s_folder_noslash a
    rw [← e]; simp
  · exact h (folder_inj (slash_prefix (r2s_folder_noslash a) (r2s_folder_noslash b) e))
  · apply r2s_folder_noslash a
    exact e.subset (by simp)

private theorem other_folder {a b : Int} (h : a ≠ b) : ¬ FolderPart (cellFolder a) (cellFolder b) := by
  rintro (e | e | e)
  · exact h (folder_inj e.symm)
  · apply r2s_folder_noslash b
    exact e.subset (by simp)
  · apply r2s_folder_noslash a
    exact e.subset (by simp)

private theorem ready_other {c : Str} {m n : Int} {inp : Inputs F} {fs : FS} (hne : m ≠ n) (h : CellReady c n fs) :
    CellReady c n (fispactSetup (cellFolder m) inp fs).2 := by
  have k : ∀ s, (fispactSetup (cellFolder m) inp fs).2.node (cellFolder n ++ p!"/" ++ s) = fs.node (cellFolder n ++ p!"/" ++ s) :=
    fun s => C109_only_inside _ _ _ _ (other_inside hne s)
  refine ⟨?_, ?_, ?_, ?_, ?_, ?_⟩
  · rw [C109_only_inside _ _ _ _ (other_folder hne)]; exact h.dir
  · have := k p!"collapse.i"
    rw [List.append_assoc] at this
    exact this.trans h.collapse
  · have := k p!"array.i"
    rw [List.append_assoc] at this
    exact this.trans h.array
  · have := k (cellFolder n ++ p!".i")
    rw [← List.append_assoc] at this
    exact this.trans h.input
  · have := k p!"FILES"
    rw [List.append_assoc] at this
    exact this.trans h.files
  · have := k p!"fluxes"
    rw [List.append_assoc] at this
    exact this.trans h.fluxes

private theorem put_other (fs : FS) {p q : Str} (n : Node) (h : q ≠ p) : (fs.put p n).node q = fs.node q := if_neg h

private theorem ne_folder (n : Int) (s : Str) : cellFolder n ≠ cellFolder n ++ '/' :: s := by
  intro h
  have := congrArg List.length h
  simp at this

private theorem parent_in (n : Int) (s : Str) (hs : '/' ∉ s) : parent (cellFolder n ++ '/' :: s) = some (cellFolder n) := by
  unfold parent
  have : (cellFolder n ++ '/' :: s).reverse.dropWhile (· ≠ '/') = '/' :: (cellFolder n).reverse := by
    simp only [List.reverse_append, List.reverse_cons, List.append_assoc, List.singleton_append]
    rw [List.dropWhile_append_of_pos]
    · simp
    · intro x hx
      simp only [List.mem_reverse] at hx
      simp only [ne_eq, decide_not, Bool.not_eq_true', decide_eq_false_iff_not]
      rintro rfl
      exact hs hx
  rw [this]
  simp

private theorem setup_ready {n : Int} {inp : Inputs F} {fs fs' : FS} {src c : Str} (h : fispactSetup (cellFolder n) inp fs = (.ok (), fs'))
    (hs : inp.filesFile = .str src) (hout : ¬ FolderPart (cellFolder n) src) (hc : fs.node src = some (.file c)) :
    CellReady c n fs' ∧ fs'.node src = some (.file c) := by
  obtain ⟨a, b, d, e, src', c', hs', hf, hcc⟩ := C109_success_partial h (C109_cell_folder n).1 (C109_cell_folder n).2
  rw [hs] at hs'
  cases hs'
  have hcc := hcc hout
  rw [hc] at hcc
  cases hcc
  have hdir : fs'.node (cellFolder n) = some .dir := by
    obtain ⟨fs1, src', c', -, -, -, hp, -, -, rfl, -⟩ := r2s_setup_run h
    have hpar := parent_in n p!"collapse.i" (by decide)
    unfold FS.parentOk at hp
    rw [show cellFolder n ++ p!"/collapse.i" = cellFolder n ++ '/' :: p!"collapse.i" from rfl, hpar] at hp
    have hne : cellFolder n ≠ [] := by unfold cellFolder; simp
    cases hcf : cellFolder n with
    | nil => exact absurd hcf hne
    | cons x xs =>
      rw [hcf] at hp
      simp only [decide_eq_true_eq] at hp
      rw [← hcf] at hp ⊢
      rw [put_other _ _ (ne_folder n p!"fluxes"), put_other _ _ (ne_folder n p!"FILES"), put_other, put_other _ _ (ne_folder n p!"array.i"),
        put_other _ _ (ne_folder n p!"collapse.i"), hp]
      rw [List.append_assoc, List.append_assoc]
      exact ne_folder n _
  refine ⟨⟨hdir, a, b, e, hf, d⟩, ?_⟩
  have := C109_only_inside (cellFolder n) inp fs src hout
  rw [h] at this
  exact this.trans hc

theorem r2s_setup_cons {inp : Inputs F} {n : Int} {ns : List Int} {fs fs' : FS} (h : setupCells inp (n :: ns) fs = (.ok (), fs')) :
    ∃ fs1, fispactSetup (cellFolder n) inp fs = (.ok (), fs1) ∧ setupCells inp ns fs1 = (.ok (), fs') := by
  unfold setupCells at h
  rw [pym_bind_ok] at h
  obtain ⟨⟨⟩, fs1, h1, h2⟩ := h
  exact ⟨fs1, h1, h2⟩

private theorem cells_keep {inp : Inputs F} {src c : Str} (hs : inp.filesFile = .str src) :
    ∀ (ns : List Int) {fs fs' : FS}, setupCells inp ns fs = (.ok (), fs') → (∀ n ∈ ns, ¬ FolderPart (cellFolder n) src) →
      fs.node src = some (.file c) → ∀ m, CellReady c m fs → CellReady c m fs' := by
  intro ns
  induction ns with
  | nil =>
    intro fs fs' h _ _ m hm
    cases h
    exact hm
  | cons n ns ih =>
    intro fs fs' h hout hc m hm
    obtain ⟨fs1, h1, h2⟩ := r2s_setup_cons h
    obtain ⟨k1, k2⟩ := setup_ready h1 hs (hout n (by simp)) hc
    refine ih h2 (fun x hx => hout x (by simp [hx])) k2 m ?_
    by_cases e : n = m
    · rw [← e]; exact k1
    · have := ready_other (inp := inp) e hm
      rw [h1] at this
      exact this

theorem r2s_cells_ready {inp : Inputs F} {src c : Str} (hs : inp.filesFile = .str src) :
    ∀ (ns : List Int) {fs fs' : FS}, setupCells inp ns fs = (.ok (), fs') → (∀ n ∈ ns, ¬ FolderPart (cellFolder n) src) →
      fs.node src = some (.file c) → (∀ n ∈ ns, CellReady c n fs') ∧ fs'.node src = some (.file c) := by
  intro ns
  induction ns with
  | nil =>
    intro fs fs' h _ hc
    cases h
    exact ⟨by simp, hc⟩
  | cons n ns ih =>
    intro fs fs' h hout hc
    obtain ⟨fs1, h1, h2⟩ := r2s_setup_cons h
    obtain ⟨k1, k2⟩ := setup_ready h1 hs (hout n (by simp)) hc
    have hout' : ∀ x ∈ ns, ¬ FolderPart (cellFolder x) src := fun x hx => hout x (by simp [hx])
    obtain ⟨a, b⟩ := ih h2 hout' k2
    refine ⟨?_, b⟩
    intro x hx
    rcases List.mem_cons.1 hx with rfl | hx
    · exact cells_keep hs ns h2 hout' k2 x k1
    · exact a x hx

private theorem cells_source {inp : Inputs F} {ns : List Int} {fs fs' : FS} (h : setupCells inp ns fs = (.ok (), fs')) (hne : ns ≠ []) :
    ∃ src, inp.filesFile = .str src ∧ ((∀ n ∈ ns, ¬ FolderPart (cellFolder n) src) → ∃ c, fs.node src = some (.file c)) := by
  cases ns with
  | nil => exact absurd rfl hne
  | cons n ns =>
    obtain ⟨fs1, h1, -⟩ := r2s_setup_cons h
    obtain ⟨-, -, -, -, src, c, hs, -, hc⟩ := C109_success_partial h1 (C109_cell_folder n).1 (C109_cell_folder n).2
    exact ⟨src, hs, fun hout => ⟨c, hc (hout n (by simp))⟩⟩

private theorem cells_outside (inp : Inputs F) : ∀ (ns : List Int) (fs : FS) (q : Str), (∀ n ∈ ns, ¬ FolderPart (cellFolder n) q) →
    (setupCells inp ns fs).2.node q = fs.node q := by
  intro ns
  induction ns with
  | nil => intro fs q _; rfl
  | cons n ns ih =>
    intro fs q h
    have e := C109_only_inside (cellFolder n) inp fs q (h n (by simp))
    unfold setupCells
    rcases hr : fispactSetup (cellFolder n) inp fs with ⟨r, fs1⟩
    rw [hr] at e
    cases r with
    | error er =>
      rw [PyM.bind_err (m := fispactSetup (p!"cell" ++ intStr n) inp) hr]
      exact e
    | ok u =>
      rw [PyM.bind_ok (m := fispactSetup (p!"cell" ++ intStr n) inp) hr]
      rw [ih fs1 q (fun x hx => h x (by simp [hx]))]
      exact e

section
variable [LinearOrder F] (flt : Str → Option F) (minusOne : F) (enum : List Str → List Str)

/-- The parts of a run that returns. -/
theorem r2s_main_parts {json : Str → Except Err (Json F)} {enumI : List Int → List Int} {config : Str} {fs fs' : FS}
    (h : main flt minusOne enum json enumI config fs = (.ok (), fs')) :
    ∃ inp ns ts r, readConfig json config fs = (.ok inp, fs) ∧ readDataFromMcnpOutput flt minusOne enum inp fs = (.ok (ns, ts), fs) ∧
      readDataFromMcnpInput flt enumI inp ns fs = (.ok r, fs) ∧ setupCells inp ns fs = (.ok (), fs') := by
  unfold main at h
  rw [pym_bind_ok] at h
  obtain ⟨inp, fs1, h1, h⟩ := h
  have e1 := congrArg (·.2) h1
  rw [(r2s_config_touches (S := fun _ => False) json config).same] at e1
  simp only at e1
  subst e1
  rw [pym_bind_ok] at h
  obtain ⟨b, fs2, h2, h⟩ := h
  simp only [PyM.lift_run, Prod.mk.injEq] at h2
  obtain ⟨-, rfl⟩ := h2
  cases b with
  | false => cases h
  | true =>
    rw [if_pos rfl, pym_bind_ok] at h
    obtain ⟨⟨ns, ts⟩, fs3, h3, h⟩ := h
    have e3 := congrArg (·.2) h3
    rw [(r2s_output_touches (S := fun _ => False) flt minusOne enum inp).same] at e3
    simp only at e3
    subst e3
    rw [pym_bind_ok] at h
    obtain ⟨r, fs4, h4, h⟩ := h
    have e4 := congrArg (·.2) h4
    rw [(r2s_input_touches (S := fun _ => False) flt enumI inp ns).same] at e4
    simp only at e4
    subst e4
    exact ⟨inp, ns, ts, r, h1, h3, h4, h⟩

private theorem input_cells {enumI : List Int → List Int} {inp : Inputs F} {ns : List Int} {fs : FS}
    {r : List (R2sCell.Row F) × List (McnpInput.Material F)} (h : readDataFromMcnpInput flt enumI inp ns fs = (.ok r, fs)) : ns ≠ [] := by
  rintro rfl
  unfold readDataFromMcnpInput at h
  rw [pym_bind_ok] at h
  obtain ⟨path, fs1, -, h⟩ := h
  rw [PyM.bind_ok (PyM.getFS_run fs1)] at h
  split at h
  · rw [pym_bind_ok] at h
    obtain ⟨mc, fs2, -, h⟩ := h
    rw [pym_bind_ok] at h
    obtain ⟨cd, fs3, h3, h⟩ := h
    simp only [PyM.lift_run, Prod.mk.injEq] at h3
    rw [(C108_none mc.cells []).2 rfl] at h3
    obtain ⟨h3, -⟩ := h3
    cases h3
    rw [pym_bind_ok] at h
    obtain ⟨x, fs4, h4, -⟩ := h
    cases h4
  · cases h

/-- A run that returns: there are tallied cells, the FILES file named in the configuration is there, and if it lies outside the folders of
    the cells, every cell has its complete folder with a copy of it. -/
theorem C239_complete {json : Str → Except Err (Json F)} {enumI : List Int → List Int} {config : Str} {fs fs' : FS}
    (h : main flt minusOne enum json enumI config fs = (.ok (), fs')) :
    ∃ inp ns ts src, readConfig json config fs = (.ok inp, fs) ∧ readDataFromMcnpOutput flt minusOne enum inp fs = (.ok (ns, ts), fs) ∧ ns ≠ [] ∧
      inp.filesFile = .str src ∧
      ((∀ n ∈ ns, ¬ FolderPart (cellFolder n) src) → ∃ c, fs.node src = some (.file c) ∧ fs'.node src = some (.file c) ∧ ∀ n ∈ ns, CellReady c n fs') := by
  obtain ⟨inp, ns, ts, r, h1, h2, h3, h4⟩ := r2s_main_parts flt minusOne enum h
  have hne := input_cells flt h3
  obtain ⟨src, hs, hc⟩ := cells_source h4 hne
  refine ⟨inp, ns, ts, src, h1, h2, hne, hs, fun hout => ?_⟩
  obtain ⟨c, hc⟩ := hc hout
  obtain ⟨a, b⟩ := r2s_cells_ready hs ns h4 hout hc
  exact ⟨c, hc, b, a⟩

/-- Whether the run returns or raises, only the folders of tallied cells are changed. -/
theorem C239_outside (json : Str → Except Err (Json F)) (enumI : List Int → List Int) (config : Str) (fs : FS) (q : Str)
    (h : (main flt minusOne enum json enumI config fs).2.node q ≠ fs.node q) :
    ∃ inp ns ts, readConfig json config fs = (.ok inp, fs) ∧ readDataFromMcnpOutput flt minusOne enum inp fs = (.ok (ns, ts), fs) ∧
      ∃ n ∈ ns, FolderPart (cellFolder n) q := by
  obtain ⟨inp, ns, ts, r, h1, h2, h3, -⟩ := C111_main flt minusOne enum json enumI config fs (fun e => h (by rw [e]))
  refine ⟨inp, ns, ts, h1, h2, ?_⟩
  by_contra hc
  push Not at hc
  apply h
  unfold main
  rw [PyM.bind_ok h1]
  cases hm : isMcnp inp.mcCode with
  | error e => rfl
  | ok b =>
    rw [PyM.bind_ok (m := PyM.lift (.ok b)) (a := b) (fs' := fs) rfl]
    cases b with
    | false => rfl
    | true =>
      rw [if_pos rfl, PyM.bind_ok h2, PyM.bind_ok h3]
      exact cells_outside inp ns fs q hc

end

/-- Entries of the folder of a cell may be written, and the folder is there or may be made. -/
def FolderFree (n : Int) (fs : FS) : Prop :=
  (fs.node (cellFolder n) = some .dir ∨ (fs.node (cellFolder n) = none ∧ fs.perm (cellFolder n) = true)) ∧
    ∀ q, cellFolder n ++ p!"/" <+: q → fs.perm q = true ∧ fs.node q ≠ some .dir

private theorem not_part {n : Int} {src : Str} (h : ¬ FolderPart (cellFolder n) src) : ¬ cellFolder n ++ p!"/" <+: src := fun e => h (Or.inr (Or.inl e))

private theorem setup_perm (n : Int) (inp : Inputs F) (fs : FS) : (fispactSetup (cellFolder n) inp fs).2.perm = fs.perm :=
  (r2s_setup_touches (cellFolder n) inp fs).1

private theorem free_after {m n : Int} {inp : Inputs F} {fs fs' : FS} {src c : Str} (h : fispactSetup (cellFolder n) inp fs = (.ok (), fs'))
    (hs : inp.filesFile = .str src) (hout : ¬ FolderPart (cellFolder n) src) (hc : fs.node src = some (.file c)) (hm : FolderFree m fs) :
    FolderFree m fs' := by
  have hp : fs'.perm = fs.perm := by
    have := setup_perm n inp fs
    rwa [h] at this
  by_cases e : n = m
  · subst e
    refine ⟨Or.inl (setup_ready h hs hout hc).1.dir, fun q hq => ⟨by rw [hp]; exact (hm.2 q hq).1, ?_⟩⟩
    obtain ⟨fs1, src', c', h1, -, -, -, -, -, rfl, -⟩ := r2s_setup_run h
    have hq1 : fs1.node q ≠ some .dir := by
      rw [h1]
      · exact (hm.2 q hq).2
      · rintro (e | e)
        · subst e
          exact r2s_folder_noslash n (hq.subset (by simp))
        · apply r2s_folder_noslash n
          exact e.subset (by simp)
    have step : ∀ (g : FS) (p x : Str), g.node q ≠ some .dir → (g.put p (.file x)).node q ≠ some .dir := by
      intro g p x hg
      by_cases e : q = p
      · rw [e]
        show (if p = p then _ else _) ≠ _
        rw [if_pos rfl]; simp
      · rw [put_other _ _ e]; exact hg
    exact step _ _ _ (step _ _ _ (step _ _ _ (step _ _ _ (step _ _ _ hq1))))
  · have k : ∀ q, ¬ FolderPart (cellFolder n) q → fs'.node q = fs.node q := by
      intro q hq
      have := C109_only_inside (cellFolder n) inp fs q hq
      rwa [h] at this
    refine ⟨?_, ?_⟩
    · rw [k _ (other_folder e), hp]; exact hm.1
    · rintro q ⟨r, rfl⟩
      rw [k _ (other_inside e r), hp]
      exact hm.2 _ ⟨r, rfl⟩

/-- The set-up of all cells succeeds if their folders are there or may be made, their entries may be written, and the FILES file is a file
    outside of them. -/
theorem C239_succeeds {inp : Inputs F} {src c : Str} (hs : inp.filesFile = .str src) : ∀ (ns : List Int) (fs : FS),
    (∀ n ∈ ns, FolderFree n fs) → (∀ n ∈ ns, ¬ FolderPart (cellFolder n) src) → fs.node src = some (.file c) → (setupCells inp ns fs).1 = .ok () := by
  intro ns
  induction ns with
  | nil => intro fs _ _ _; rfl
  | cons n ns ih =>
    intro fs hf hout hc
    have ho := hout n (by simp)
    have h1 := C109_setup_succeeds (cellFolder n) src c inp fs (by unfold cellFolder; simp) (r2s_folder_noslash n) (hf n (by simp)).1 (hf n (by simp)).2
      hs hc (not_part ho)
    rcases hr : fispactSetup (cellFolder n) inp fs with ⟨r, fs1⟩
    rw [hr] at h1
    simp only at h1
    subst h1
    unfold setupCells
    rw [PyM.bind_ok (m := fispactSetup (p!"cell" ++ intStr n) inp) hr]
    exact ih fs1 (fun m hm => free_after hr hs ho hc (hf m (by simp [hm]))) (fun m hm => hout m (by simp [hm])) (setup_ready hr hs ho hc).2

private theorem put_eq {fs : FS} {p : Str} {n : Node} (h : fs.node p = some n) : fs.put p n = fs := by
  cases fs with
  | mk node perm =>
    unfold FS.put
    simp only [FS.mk.injEq, and_true]
    funext q
    split_ifs with e
    · rw [e]; exact h.symm
    · rfl

private theorem setup_again {n : Int} {inp : Inputs F} {fs fs' : FS} {src c : Str} (hr : CellReady c n fs) (hs : inp.filesFile = .str src)
    (hc : fs.node src = some (.file c)) (h : fispactSetup (cellFolder n) inp fs = (.ok (), fs')) : fs' = fs := by
  obtain ⟨fs1, src', c', -, hs', -, -, hsrc, -, rfl, hfs1⟩ := r2s_setup_run h
  have e : fs1 = fs := by
    rw [hfs1, (C109_folder (cellFolder n) fs).2.2.2.2.1 (by rw [hr.dir]; simp)]
  subst e
  rw [hs] at hs'
  cases hs'
  have e1 : fs1.put (cellFolder n ++ p!"/collapse.i") (.file (fileText (collapseLines 175))) = fs1 := put_eq hr.collapse
  have e2 : fs1.put (cellFolder n ++ p!"/array.i") (.file (fileText arrayLines)) = fs1 := put_eq hr.array
  have e3 : fs1.put (cellFolder n ++ p!"/" ++ cellFolder n ++ p!".i") (.file []) = fs1 := put_eq hr.input
  rw [e1, e2, e3] at hsrc ⊢
  rw [hc] at hsrc
  cases hsrc
  rw [put_eq hr.files, put_eq hr.fluxes]

/-- A second run of the set-up changes nothing. -/
theorem C239_again {inp : Inputs F} {src c : Str} (hs : inp.filesFile = .str src) {ns : List Int} {fs fs' fs'' : FS}
    (h : setupCells inp ns fs = (.ok (), fs')) (hout : ∀ n ∈ ns, ¬ FolderPart (cellFolder n) src) (hc : fs.node src = some (.file c))
    (h' : setupCells inp ns fs' = (.ok (), fs'')) : fs'' = fs' := by
  obtain ⟨hr, hc'⟩ := r2s_cells_ready hs ns h hout hc
  clear h hc fs
  have key : ∀ (l : List Int), (∀ n ∈ l, CellReady c n fs') → setupCells inp l fs' = (.ok (), fs'') → fs'' = fs' := by
    intro l
    induction l with
    | nil => intro _ h; cases h; rfl
    | cons n l ih =>
      intro hl h
      obtain ⟨fs1, h1, h2⟩ := r2s_setup_cons h
      have e := setup_again (hl n (by simp)) hs hc' h1
      rw [e] at h2
      exact ih (fun x hx => hl x (by simp [hx])) h2
  exact key ns hr h'

private def runInp : Inputs ℚ := { filesFile := .str p!"lib/FILES" }
private def runFS : FS := ⟨fun q => if q = p!"lib" then some .dir else if q = p!"lib/FILES" then some (.file p!"abc") else none, fun _ => true⟩

/-- Two cells, one of them named twice. -/
example : (setupCells runInp [1, 12, 1] runFS).1 = .ok () ∧ (setupCells runInp [1, 12, 1] runFS).2.node p!"cell12/FILES" = some (.file p!"abc") ∧
    (setupCells runInp [1, 12, 1] runFS).2.node p!"cell1" = some .dir ∧ (setupCells runInp [1, 12, 1] runFS).2.node p!"cell2" = none := by
  refine ⟨?_, ?_, ?_, ?_⟩ <;> decide +kernel

example : FolderFree 1 runFS ∧ ¬ FolderPart (cellFolder 1) p!"lib/FILES" := by
  refine ⟨⟨Or.inr (by decide +kernel), ?_⟩, ?_⟩
  · rintro q ⟨r, rfl⟩
    refine ⟨rfl, ?_⟩
    have h : ∀ r, runFS.node (cellFolder 1 ++ p!"/" ++ r) = none := by
      intro r
      show (if p!"cell1/" ++ r = p!"lib" then some Node.dir else if p!"cell1/" ++ r = p!"lib/FILES" then some (Node.file p!"abc") else none) = none
      rw [if_neg (by simp), if_neg (by simp)]
    rw [h]; simp
  · unfold FolderPart; decide +kernel

end Props
