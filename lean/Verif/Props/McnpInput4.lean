/- Properties C168-C173: the whole input file, thermal and mx cards, descriptions and surface checks (mcnp_input_reader.py). -/
import Verif.Props.McnpInput3
import Verif.Model.McnpInputText

set_option linter.unusedSectionVars false
set_option linter.unusedSimpArgs false

namespace Props
open Py NeutUtilities McnpInput Spec.Mcnp
variable {F : Type}

/-! ### C168 -/

/-- A line of the list starts with the name in any case. -/
def StartsCard (lines : List Str) (name : Str) : Prop := ∃ l ∈ lines, ∃ a b, l = a ++ b ∧ lower a = name

private theorem present_iff {lines : List Str} {name : Str} (hn : lower name = name) :
    isCardPresent lines name = true ↔ StartsCard lines name := by
  unfold isCardPresent StartsCard
  rw [List.any_eq_true]
  refine exists_congr fun l => and_congr_right fun _ => ?_
  rw [startsWith_iff, hn]
  constructor
  · rintro ⟨t, ht⟩
    refine ⟨l.take name.length, l.drop name.length, (List.take_append_drop _ _).symm, ?_⟩
    have : lower l = name ++ t := ht.symm
    show List.map _ _ = _
    rw [List.map_take]
    have h2 : List.map Char.toLower l = name ++ t := this
    rw [h2, List.take_left]
  · rintro ⟨a, b, rfl, ha⟩
    refine ⟨lower b, ?_⟩
    rw [← ha]
    simp [lower]

private theorem material_number {flt : Str → Option F} {n : Int} {lines : List Str} {m : Material F}
    (h : readMaterialLines flt n lines = .ok m) : m.number = n := by
  unfold readMaterialLines at h
  obtain ⟨m', h1, h2⟩ := ex_bind_ok.1 h
  cases h2
  show m'.number = n
  unfold processMaterialLine at h1
  simp only at h1
  split at h1
  · cases h1
  · obtain ⟨c, _, h3⟩ := ex_bind_ok.1 h1
    cases h3; rfl

theorem readMaterials_ok {flt : Str → Option F} {lines : List Str} {ns : List Int} {d d' : Dict Int (Material F)}
    (h : readMaterials flt lines ns d = .ok d') :
    ∀ n m, d'.get n = some m ↔ (n ∈ ns ∧ readMaterialLines flt n lines = .ok m) ∨ (n ∉ ns ∧ d.get n = some m) := by
  induction ns generalizing d with
  | nil => cases h; simp
  | cons k ks ih =>
    obtain ⟨mk, h1, h2⟩ := ex_bind_ok.1 h
    have hk := material_number h1
    intro n m
    rw [ih h2 n m]
    by_cases hn : n ∈ ks
    · simp [hn]
    · simp only [hn, false_and, not_false_eq_true, true_and, false_or, List.mem_cons, or_false]
      rw [hk]
      by_cases he : n = k
      · subst he
        rw [Dict.get_set_self]
        simp [h1]
      · rw [Dict.get_set_ne _ _ he]
        simp [he]

theorem readMaterials_each {flt : Str → Option F} {lines : List Str} {ns : List Int} {d d' : Dict Int (Material F)}
    (h : readMaterials flt lines ns d = .ok d') : ∀ n ∈ ns, ∃ m, readMaterialLines flt n lines = .ok m := by
  induction ns generalizing d with
  | nil => intro n hn; cases hn
  | cons k ks ih =>
    obtain ⟨mk, h1, h2⟩ := ex_bind_ok.1 h
    intro n hn
    rcases List.mem_cons.1 hn with rfl | hn
    · exact ⟨mk, h1⟩
    · exact ih h2 n hn

theorem readTallies_spec (lines : List Str) (ns : List Int) :
    (readTallies lines ns = none ↔ ns = []) ∧
    ∀ d, readTallies lines ns = some d → ∀ n t, d.get n = some t ↔ n ∈ ns ∧ t = readTallyLines n lines := by
  constructor
  · unfold readTallies
    split <;> simp_all
  · intro d h
    have hd : d = ns.foldl (fun (d : Dict Int McnpInput.Tally) (n : Int) => d.set (readTallyLines n lines).number (readTallyLines n lines)) [] := by
      unfold readTallies at h
      split at h
      · cases h
      · exact (Option.some.inj h).symm
    subst hd
    have key : ∀ (ns : List Int) (d : Dict Int McnpInput.Tally) n t,
        (ns.foldl (fun (d : Dict Int McnpInput.Tally) (n : Int) => d.set (readTallyLines n lines).number (readTallyLines n lines)) d).get n = some t ↔
          (n ∈ ns ∧ t = readTallyLines n lines) ∨ (n ∉ ns ∧ d.get n = some t) := by
      clear * -
      intro ns
      induction ns with
      | nil => simp
      | cons k ks ih =>
        intro d n t
        rw [List.foldl_cons, ih]
        by_cases hn : n ∈ ks
        · simp [hn]
        · simp only [hn, false_and, not_false_eq_true, true_and, false_or, List.mem_cons, or_false]
          rw [show (readTallyLines k lines).number = k from rfl]
          by_cases he : n = k
          · subst he
            rw [Dict.get_set_self]
            simp [eq_comm]
          · rw [Dict.get_set_ne _ _ he]
            simp [he]
    intro n t
    rw [key]
    simp [Dict.get]

/-- A file that is read: the three blocks are the lines of the file, cut at the first two blank lines; cells and surfaces come from
    the first two; the data block gives exactly one material per material number and one tally per tally number, and the flags say
    whether a card with that name starts a line; nothing is written. -/
theorem C168_file {flt : Str → Option F} {path : Str} {fs fs' : FS} {i : Input F} (h : readMcnpInput flt path fs = (.ok i, fs')) :
    fs' = fs ∧ i.filePath = path ∧ ∃ c, fs.node path = some (.file c) ∧ ∃ lines, lines = splitlines (univNL c) ∧
      lines = i.cellBlock ++ i.surfaceBlock ++ i.dataBlock ∧ (∀ l ∈ i.cellBlock, ¬ Spec.Blank l) ∧
      (∃ x s, i.surfaceBlock = x :: s ∧ Spec.Blank x ∧ ∀ l ∈ s, ¬ Spec.Blank l) ∧ (∃ y d, i.dataBlock = y :: d ∧ Spec.Blank y) ∧
      processCellBlock flt i.cellBlock = .ok i.cells ∧ processSurfaceBlock i.surfaceBlock = .ok i.surfaces ∧
      getTallyNumbers i.dataBlock = .ok i.talNums ∧ getMaterialNumbers i.dataBlock = .ok i.matNums ∧
      (∀ n m, i.materials.get n = some m ↔ n ∈ i.matNums ∧ readMaterialLines flt n i.dataBlock = .ok m) ∧
      (∀ n ∈ i.matNums, ∃ m, i.materials.get n = some m ∧ m.number = n) ∧
      (i.tallies = none ↔ i.talNums = []) ∧
      (∀ d, i.tallies = some d → ∀ n t, d.get n = some t ↔ n ∈ i.talNums ∧ t = readTallyLines n i.dataBlock) ∧
      i.mode = readModeCard i.dataBlock ∧ (∀ k l, i.comments.get k = some l ↔ lines[k]? = some l ∧ Comment l) ∧
      (i.isVoid = true ↔ StartsCard i.dataBlock p!"void") ∧ (i.isKcode = true ↔ StartsCard i.dataBlock p!"kcode") ∧
      (i.isSdef = true ↔ StartsCard i.dataBlock p!"sdef") ∧ (i.isPtrac = true ↔ StartsCard i.dataBlock p!"ptrac") := by
  unfold readMcnpInput at h
  cases hn : fs.node path with
  | none => rw [PyM.bind_err (getLines_none hn)] at h; cases h
  | some nd =>
    cases nd with
    | dir => rw [PyM.bind_err (getLines_dir hn)] at h; cases h
    | file c =>
      rw [PyM.bind_ok (getLines_file hn), PyM.lift_run] at h
      obtain ⟨h1, rfl⟩ := Prod.mk.inj h
      unfold readLines at h1
      obtain ⟨⟨cb, sb, db⟩, hs, h1⟩ := ex_bind_ok.1 h1
      obtain ⟨cells, hc, h1⟩ := ex_bind_ok.1 h1
      obtain ⟨surfs, hsf, h1⟩ := ex_bind_ok.1 h1
      obtain ⟨tn, htn, h1⟩ := ex_bind_ok.1 h1
      obtain ⟨mn, hmn, h1⟩ := ex_bind_ok.1 h1
      obtain ⟨mats, hm, h1⟩ := ex_bind_ok.1 h1
      cases h1
      obtain ⟨b1, b2, b3, b4⟩ := (C78_blocks _ _ _ _).1 hs
      have hmat : ∀ n m, mats.get n = some m ↔ n ∈ mn ∧ readMaterialLines flt n db = .ok m := by
        intro n m
        rw [readMaterials_ok hm]
        simp [Dict.get]
      refine ⟨rfl, rfl, c, rfl, _, rfl, b1, b2, b3, b4, hc, hsf, htn, hmn, hmat, ?_, (readTallies_spec _ _).1, (readTallies_spec _ _).2, rfl,
        fun k l => C80_full_line _ _ _, present_iff rfl, present_iff rfl, present_iff rfl, present_iff rfl⟩
      intro n hn
      obtain ⟨m, hm'⟩ := readMaterials_each hm n hn
      exact ⟨m, (hmat n m).2 ⟨hn, hm'⟩, material_number hm'⟩

/-- A missing file, a directory, and a file with fewer than two blank lines. -/
theorem C168_errors (flt : Str → Option F) (path : Str) (fs : FS) :
    (fs.node path = none → readMcnpInput flt path fs = (.error .FileNotFoundError, fs)) ∧
    (fs.node path = some .dir → readMcnpInput flt path fs = (.error .OSError, fs)) ∧ (readMcnpInput flt path fs).2 = fs := by
  unfold readMcnpInput
  refine ⟨fun h => PyM.bind_err (getLines_none h), fun h => PyM.bind_err (getLines_dir h), ?_⟩
  cases hn : fs.node path with
  | none => rw [PyM.bind_err (getLines_none hn)]
  | some nd =>
    cases nd with
    | dir => rw [PyM.bind_err (getLines_dir hn)]
    | file c => rw [PyM.bind_ok (getLines_file hn), PyM.lift_run]

private def num (s : Str) : Option Int := pyInt s

example : (readLines num p!"x" [p!"title", p!"1 0 -5 imp:n=1", p!"", p!"5 so 3", p!"", p!"m1 1001 1", p!"SDEF", p!"f4:n 1"]).toOption.map
    (fun i => ((i.matNums, i.talNums), (i.isSdef, i.isKcode))) = some (([1], [4]), (true, false)) := by
  decide +kernel

/-! ### C169 -/

/-- The thermal (mt) and mx text of a material is the text of the first such card of that material, and empty exactly if there is none.
    The cards of another material (mt10 for material 1) do not count.
    Missing: further mx cards of the same material (`C169_second_mx_violated`). -/
theorem C169_cards_partial {flt : Str → Option F} {n : Nat} {lines : List Str} {m : Material F} (h : readMaterialLines flt n lines = .ok m) :
    (∀ first body, Card (CardHead (p!"mt" ++ natStr n)) lines first body → m.thermal = cardText first body) ∧
    (m.thermal = [] ↔ ∀ l ∈ lines, ¬ CardHead (p!"mt" ++ natStr n) l) ∧
    (∀ first body, Card (CardHead (p!"mx" ++ natStr n)) lines first body → m.mx = cardText first body) ∧
    (m.mx = [] ↔ ∀ l ∈ lines, ¬ CardHead (p!"mx" ++ natStr n) l) := by
  unfold readMaterialLines at h
  obtain ⟨m', _, h2⟩ := ex_bind_ok.1 h
  cases h2
  refine ⟨fun f b hc => C81_card_lines _ _ f b (by simp) (by simp) hc, C81_absent _ _ (by simp) (by simp),
    fun f b hc => C81_card_lines _ _ f b (by simp) (by simp) hc, C81_absent _ _ (by simp) (by simp)⟩

/-- Whatever follows the first mx card of a material (a further card of the same material for another particle, say) is not read. -/
theorem C169_second_mx_violated : ∃ lines : List Str, (∃ l ∈ lines, l = p!"mx1:p 1001.70u") ∧ CardHead p!"mx1" p!"mx1:p 1001.70u" ∧
    ∃ m, readMaterialLines num 1 lines = .ok m ∧ m.mx = [p!"mx1:n 1001.70c"] := by
  refine ⟨[p!"m1 1001 1", p!"mx1:n 1001.70c", p!"mx1:p 1001.70u"], by simp, ⟨p!"mx1", ':', p!"p 1001.70u", rfl, rfl, .inr rfl⟩,
    ⟨1, [(p!"1001", 1)], [], 1, [], [p!"mx1:n 1001.70c"]⟩, ?_, rfl⟩
  decide +kernel

example : (readMaterialLines num 1 [p!"m1 1001 1", p!"mt10 be.20t", p!"MT1 lwtr.10t $ x"]).toOption.map (·.thermal) = some [p!"mt1 lwtr.10t "] := by
  decide +kernel

/-! ### C170 -/

/-- The calculation type without both a kcode and an sdef card. -/
theorem C170_type_partial {flt : Str → Option F} {path : Str} {fs fs' : FS} {i : Input F} (h : readMcnpInput flt path fs = (.ok i, fs'))
    (hb : ¬ (StartsCard i.dataBlock p!"kcode" ∧ StartsCard i.dataBlock p!"sdef")) :
    (StartsCard i.dataBlock p!"kcode" ↔ calcType i = p!"Kcode calculation") ∧
    (StartsCard i.dataBlock p!"sdef" ↔ calcType i = p!"Fixed source calculation") := by
  obtain ⟨_, _, _, _, _, _, _, _, _, _, _, _, _, _, _, _, _, _, _, _, _, hk, hs, _⟩ := C168_file h
  rw [← hk, ← hs] at hb ⊢
  unfold calcType
  by_cases h1 : i.isSdef = true <;> by_cases h2 : i.isKcode = true
  · exact absurd ⟨h2, h1⟩ hb
  · simp [h1, h2]
  · simp [h1, h2]
  · simp [h1, h2]

/-- A kcode calculation whose first source is given by an sdef card is reported as a fixed source calculation. -/
theorem C170_kcode_violated {flt : Str → Option F} {path : Str} {fs fs' : FS} {i : Input F} (h : readMcnpInput flt path fs = (.ok i, fs'))
    (hs : StartsCard i.dataBlock p!"sdef") : calcType i = p!"Fixed source calculation" := by
  obtain ⟨_, _, _, _, _, _, _, _, _, _, _, _, _, _, _, _, _, _, _, _, _, _, hs', _⟩ := C168_file h
  unfold calcType
  rw [if_pos (hs'.2 hs)]

example : (readLines num p!"x" [p!"title", p!"1 0 -5", p!"", p!"5 so 3", p!"", p!"kcode 100 1 1 5", p!"sdef erg=1"]).toOption.map
    (fun i => (i.isKcode, calcType i)) = some (true, p!"Fixed source calculation") := by decide +kernel

/-! ### C171 -/

/-- MCNP takes negative fractions as weights and positive ones as atoms; the attribute is true for atom fractions as well. -/
theorem C171_violated : ∃ m : Material Int, readMaterialLines num 1 [p!"m1 1001 2 8016 1"] = .ok m ∧ (∀ e ∈ m.composition, 0 < e.2) ∧ isByWeight m = true :=
  ⟨⟨1, [(p!"1001", 2), (p!"8016", 1)], [], 2, [], []⟩, by decide +kernel, by decide, rfl⟩

/-- Right for materials given by weight. -/
theorem C171_weight_partial [Zero F] [LT F] (m : Material F) (_ : ∀ e ∈ m.composition, e.2 < 0) : isByWeight m = true := rfl

/-! ### C172 -/

/-- The numbers of entries MCNP accepts for a surface type. -/
def entryCounts (ty : Str) : List Nat :=
  if ty = p!"px" ∨ ty = p!"py" ∨ ty = p!"pz" ∨ ty = p!"so" ∨ ty = p!"cx" ∨ ty = p!"cy" ∨ ty = p!"cz" then [1]
  else if ty = p!"sx" ∨ ty = p!"sy" ∨ ty = p!"sz" then [2]
  else if ty = p!"kx" ∨ ty = p!"ky" ∨ ty = p!"kz" then [2, 3]
  else if ty = p!"c/x" ∨ ty = p!"c/y" ∨ ty = p!"c/z" then [3]
  else if ty = p!"k/x" ∨ ty = p!"k/y" ∨ ty = p!"k/z" then [4, 5]
  else if ty = p!"s" then [4] else if ty = p!"p" then [4, 9] else if ty = p!"gq" ∨ ty = p!"sq" then [10] else []

/-- Surfaces without any entry are read and pass all five checks. -/
theorem C172_violated : ∀ ty ∈ [p!"px", p!"p", p!"so", p!"s", p!"cx", p!"c/z", p!"kx", p!"k/y", p!"gq"],
    ∃ s, processSurfaceLine (p!"1 " ++ ty) = .ok s ∧ s.params.length ∉ entryCounts ty ∧
      checkPlane s = true ∧ checkSphere s = true ∧ checkCylinder s = true ∧ checkCone s = true ∧ checkGQ s = true := by
  intro ty hty
  refine ⟨⟨1, ty, [], none⟩, ?_, ?_, rfl, rfl, rfl, rfl, rfl⟩
  · simp only [List.mem_cons, List.not_mem_nil, or_false] at hty
    rcases hty with rfl | rfl | rfl | rfl | rfl | rfl | rfl | rfl | rfl <;> decide +kernel
  · simp only [List.mem_cons, List.not_mem_nil, or_false] at hty
    rcases hty with rfl | rfl | rfl | rfl | rfl | rfl | rfl | rfl | rfl <;> decide +kernel

/-- No valid surface is rejected. -/
theorem C172_accepts_partial (s : Surface) (_ : s.params.length ∈ entryCounts s.surfType) :
    checkPlane s = true ∧ checkSphere s = true ∧ checkCylinder s = true ∧ checkCone s = true ∧ checkGQ s = true := ⟨rfl, rfl, rfl, rfl, rfl⟩

/-! ### C173 -/

private theorem lines_of {ls : List Str} (hne : ls ≠ []) (h : ∀ l ∈ ls, '\n' ∉ l) : splitOn '\n' (join p!"\n" ls) = ls := splitOn_join hne h

private theorem intStr_noNL (n : Int) : '\n' ∉ intStr n := by
  unfold intStr
  cases n with
  | ofNat n =>
    intro h
    have := natStr_isDigit (n := n) (by simpa using h)
    exact absurd this (by decide)
  | negSucc n =>
    intro h
    simp at h
    have := natStr_isDigit h
    exact absurd this (by decide)

/-- The description of a tally has one line with the number, one with the card, and one for each modifier, present exactly if the
    tally has it; `t.data` is a single line. -/
theorem C173_tally (t : McnpInput.Tally) (hd : '\n' ∉ t.data) :
    ∃ mods, splitOn '\n' (tallyText t) = (p!"Tally number: " ++ intStr t.number) :: (p!"Tally card: " ++ t.data) :: mods ∧ mods.Nodup ∧
      (p!"Has energy bins" ∈ mods ↔ t.hasEbins = true) ∧ (p!"Has time bins" ∈ mods ↔ t.hasTbins = true) ∧
      (p!"Is modified by a flux modifed card" ∈ mods ↔ t.hasFm = true) ∧ mods.length = [t.hasEbins, t.hasTbins, t.hasFm].count true := by
  refine ⟨(if t.hasEbins then [p!"Has energy bins"] else []) ++ (if t.hasTbins then [p!"Has time bins"] else []) ++
    (if t.hasFm then [p!"Is modified by a flux modifed card"] else []), ?_, ?_⟩
  · unfold tallyText
    rw [lines_of (by simp)]
    · simp
    · intro l hl
      simp only [List.append_assoc, List.cons_append, List.nil_append, List.mem_cons, List.mem_append] at hl
      rcases hl with rfl | rfl | hl | hl | hl
      · have := intStr_noNL t.number
        simp [this]
      · simp [hd]
      all_goals
        split at hl
        · simp only [List.mem_singleton] at hl; subst hl; decide
        · cases hl
  · cases t.hasEbins <;> cases t.hasTbins <;> cases t.hasFm <;> decide

/-- The description of a surface: number, type, entries, and a line for the transform exactly if there is one. -/
theorem C173_surface (repr : Str → Str) (s : Surface) (hty : '\n' ∉ s.surfType) (hp : ∀ p ∈ s.params, '\n' ∉ repr p) (ht : ∀ t ∈ s.transform, '\n' ∉ t) :
    splitOn '\n' (surfaceText repr s) = [p!"Surface number: " ++ intStr s.number, p!"Surface type: " ++ s.surfType,
      p!"Surface parameters: [" ++ join p!", " (s.params.map repr) ++ p!"]"] ++ (s.transform.map (p!"Surface transform: " ++ ·)).toList := by
  have hj : ∀ ls : List Str, (∀ l ∈ ls, '\n' ∉ l) → '\n' ∉ join p!", " ls := by
    clear * -
    intro ls
    induction ls with
    | nil => intro _ h; cases h
    | cons x xs ih =>
      intro h
      cases xs with
      | nil => exact h x (by simp)
      | cons y ys =>
        have h1 := ih (fun l hl => h l (by simp only [List.mem_cons] at hl ⊢; tauto))
        have h2 := h x (by simp)
        simp only [join]
        intro h3
        rcases List.mem_append.1 h3 with h3 | h3
        · exact h2 h3
        · rcases List.mem_append.1 h3 with h3 | h3
          · revert h3; decide
          · exact h1 h3
  unfold surfaceText
  rw [lines_of (by simp)]
  · cases s.transform <;> simp [listText]
  · intro l hl
    simp only [List.cons_append, List.nil_append, List.mem_cons] at hl
    rcases hl with rfl | rfl | rfl | hl
    · have := intStr_noNL s.number
      simp [this]
    · simp [hty]
    · have := hj (s.params.map repr) (by simpa using hp)
      simp [listText, this]
    · cases htr : s.transform with
      | none => rw [htr] at hl; cases hl
      | some t =>
        rw [htr] at hl
        simp only [List.mem_singleton] at hl
        subst hl
        have := ht t (by rw [htr]; rfl)
        simp [this]

example : tallyText { number := 4, talType := p!"4", data := p!"f4:n 1", hasFm := true } =
    p!"Tally number: 4\nTally card: f4:n 1\nIs modified by a flux modifed card" := by decide +kernel

/-! ### C174 -/

/-- Every count stands on its own line: not so, the counts of the directory and of the thermal tables share one. -/
theorem C174_violated {F : Type} (x : Xsdir.XSDir F) (hf : '\n' ∉ x.filePath) (hd : ∀ d ∈ x.datapath, '\n' ∉ d) :
    splitOn '\n' (Xsdir.xsdirText x) = [p!"Filename: " ++ x.filePath, p!"Datapath: " ++ x.datapath.getD p!"None",
      p!"Number of AWR entries: " ++ natStr x.awr.length,
      p!"Number of directory entries: " ++ natStr x.directory.length ++ p!"Number of TSL entries: " ++ natStr x.thermal.length] := by
  have hn : ∀ n, '\n' ∉ natStr n := fun n h => absurd (natStr_isDigit h) (by decide)
  rw [← lines_of (ls := [p!"Filename: " ++ x.filePath, p!"Datapath: " ++ x.datapath.getD p!"None",
      p!"Number of AWR entries: " ++ natStr x.awr.length,
      p!"Number of directory entries: " ++ natStr x.directory.length ++ p!"Number of TSL entries: " ++ natStr x.thermal.length]) (by simp)]
  · congr 1
    simp [Xsdir.xsdirText, join]
  · intro l hl
    simp only [List.mem_cons, List.not_mem_nil, or_false] at hl
    rcases hl with rfl | rfl | rfl | rfl
    · simp [hf]
    · cases hx : x.datapath with
      | none => decide
      | some d =>
        have := hd d (by rw [hx]; rfl)
        simp [this]
    · simp [hn]
    · simp [hn]

/-- The first three lines are right. -/
theorem C174_lines_partial {F : Type} (x : Xsdir.XSDir F) (hf : '\n' ∉ x.filePath) (hd : ∀ d ∈ x.datapath, '\n' ∉ d) :
    (splitOn '\n' (Xsdir.xsdirText x)).take 3 = [p!"Filename: " ++ x.filePath, p!"Datapath: " ++ x.datapath.getD p!"None",
      p!"Number of AWR entries: " ++ natStr x.awr.length] := by
  rw [C174_violated x hf hd]; rfl

example : Xsdir.xsdirText (⟨p!"x", none, [], [], []⟩ : Xsdir.XSDir Int) =
    p!"Filename: x\nDatapath: None\nNumber of AWR entries: 0\nNumber of directory entries: 0Number of TSL entries: 0" := by decide +kernel

end Props
