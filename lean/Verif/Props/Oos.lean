/- Properties C199 and C200 of fispact_analysis.py: the limits file. -/
import Verif.Model.Oos
import Verif.Props.FispactAnalysis
import Verif.Proofs.Lines
import Verif.Proofs.Str
import Verif.Spec.Elements

set_option linter.unusedSectionVars false
set_option linter.unusedSimpArgs false

namespace Props
open Py FispactAnalysis
variable {K : Type} [Field K] [LinearOrder K] [IsStrictOrderedRing K]

/-! ### C199: finding and reading the limits -/

/-- A relative path is looked up in the folder of the module and nowhere else. -/
theorem C199_relative (flt : Str → Option K) {base path : Str} {fs fs' : FS} (hp : path.head? ≠ some '/') (hb : base ≠ [])
    (hl : base.getLast? ≠ some '/') (h : fs.node (base ++ p!"/" ++ path) = fs'.node (base ++ p!"/" ++ path)) :
    readOOS flt base fs path = readOOS flt base fs' path ∧ (fs.node (base ++ p!"/" ++ path) = none → readOOS flt base fs path = .error .FileNotFoundError) ∧
      ∀ c, fs.node (base ++ p!"/" ++ path) = some (.file c) → readOOS flt base fs path = parseOos flt c := by
  have hj : osJoin base path = base ++ p!"/" ++ path := by
    unfold osJoin
    rw [if_neg, if_neg]
    · simp only [Bool.or_eq_true, List.isEmpty_iff, endsWith_iff, not_or]
      refine ⟨hb, ?_⟩
      rintro ⟨r, hr⟩
      exact hl (by rw [← hr]; simp)
    · rw [startsWith_iff]
      rintro ⟨r, hr⟩
      exact hp (by rw [← hr]; rfl)
  unfold readOOS
  rw [hj, h]
  exact ⟨rfl, fun h0 => by rw [h0], fun c hc => by rw [hc]⟩

/-- An absolute path is used as it is, whatever the folder of the module. -/
theorem C199_absolute (flt : Str → Option K) {base path : Str} {fs : FS} (hp : path.head? = some '/') {c : Str}
    (h : fs.node path = some (.file c)) : readOOS flt base fs path = parseOos flt c := by
  have hj : osJoin base path = path := by
    unfold osJoin
    rw [if_pos]
    rw [startsWith_iff]
    cases path with
    | nil => cases hp
    | cons a r => simp only [List.head?_cons, Option.some.injEq] at hp; exact ⟨r, by rw [hp]; rfl⟩
  unfold readOOS
  rw [hj, h]

/-- A row of the table: name, level, its value and the end of its line. -/
structure OosLine (K : Type) where
  name : Str
  level : Str
  value : K
  eol : Str

/-- Names and levels hold no tabs and line ends, the line ends are those of Unix or Windows. -/
def OosLine.WF (flt : Str → Option K) (r : OosLine K) : Prop :=
  r.level ≠ [] ∧ (∀ c ∈ r.name ++ r.level, c ≠ '\t' ∧ c ≠ '\n' ∧ c ≠ '\r') ∧ flt r.level = some r.value ∧ (r.eol = p!"\n" ∨ r.eol = p!"\r\n")

def OosLine.text (r : OosLine K) : Str := r.name ++ p!"\t" ++ r.level ++ r.eol

private theorem univNL_line {l : Str} (h : ∀ c ∈ l, c ≠ '\r') {eol : Str} (he : eol = p!"\n" ∨ eol = p!"\r\n") (rest : Str) :
    univNL (l ++ eol ++ rest) = l ++ '\n' :: univNL rest := by
  induction l with
  | nil =>
    rcases he with rfl | rfl
    · exact univNL_cons (by decide)
    · rfl
  | cons c l ih =>
    simp only [List.cons_append]
    rw [univNL_cons (h c (by simp)), ih (fun x hx => h x (by simp [hx]))]

private theorem split_lines (ls : List (Str × Str)) (h : ∀ e ∈ ls, (∀ c ∈ e.1, c ≠ '\r' ∧ c ≠ '\n') ∧ (e.2 = p!"\n" ∨ e.2 = p!"\r\n")) :
    splitOn '\n' (univNL (ls.flatMap (fun e => e.1 ++ e.2))) = ls.map (·.1) ++ [[]] := by
  induction ls with
  | nil => rfl
  | cons e ls ih =>
    obtain ⟨h1, h2⟩ := h e (by simp)
    rw [List.flatMap_cons, univNL_line (fun c hc => (h1 c hc).1) h2]
    unfold splitOn at ih ⊢
    rw [splitP_append_sep (by decide), ih (fun e he => h e (by simp [he])), splitP_of_not_mem]
    · rfl
    · intro c hc
      simpa using (h1 c hc).2

/-- Every row gives its name and its level, in order. -/
theorem C199_rows {flt : Str → Option K} {rows : List (OosLine K)} (h : ∀ r ∈ rows, r.WF flt) {eol : Str} (he : eol = p!"\n" ∨ eol = p!"\r\n") :
    parseOos flt (p!"Nuclide\tOOS Level" ++ eol ++ rows.flatMap OosLine.text) = .ok (rows.map (fun r => (r.name, some r.value))) := by
  have hs := split_lines ((p!"Nuclide\tOOS Level", eol) :: rows.map (fun r => (r.name ++ p!"\t" ++ r.level, r.eol))) (by
    intro e hmem
    rcases List.mem_cons.1 hmem with rfl | hmem
    · exact ⟨(by decide : ∀ c ∈ p!"Nuclide\tOOS Level", c ≠ '\r' ∧ c ≠ '\n'), he⟩
    · obtain ⟨r, hr, rfl⟩ := List.mem_map.1 hmem
      obtain ⟨_, h2, _, h4⟩ := h r hr
      refine ⟨?_, h4⟩
      intro c hc
      simp only [List.append_assoc, List.mem_append] at hc
      rcases hc with hc | hc | hc
      · exact ⟨(h2 c (by simp [hc])).2.2, (h2 c (by simp [hc])).2.1⟩
      · simp only [List.mem_singleton] at hc; subst hc; decide
      · exact ⟨(h2 c (by simp [hc])).2.2, (h2 c (by simp [hc])).2.1⟩)
  rw [List.flatMap_cons, List.flatMap_map] at hs
  unfold parseOos
  have ht : rows.flatMap OosLine.text = rows.flatMap (fun r => r.name ++ p!"\t" ++ r.level ++ r.eol) := rfl
  rw [ht, hs]
  have hf : ((p!"Nuclide\tOOS Level", eol) :: rows.map (fun r => (r.name ++ p!"\t" ++ r.level, r.eol))).map (·.1) ++ [[]] =
      p!"Nuclide\tOOS Level" :: (rows.map (fun r => r.name ++ p!"\t" ++ r.level) ++ [[]]) := by
    simp [List.map_map, Function.comp_def]
  rw [hf, List.filter_cons_of_pos (by decide), List.filter_append, List.filter_eq_self.2 (by
    intro l hl
    obtain ⟨r, _, rfl⟩ := List.mem_map.1 hl
    simp)]
  simp only [List.filter_cons, List.isEmpty_nil, Bool.not_true, List.filter_nil, List.append_nil, if_true]
  simp only [Bool.false_eq_true, if_false, List.append_nil]
  rw [mapM_except_ok_iff, List.forall₂_map_left_iff, List.forall₂_map_right_iff, List.forall₂_same]
  intro r hr
  obtain ⟨h1, h2, h3, _⟩ := h r hr
  have hsp : splitOn '\t' (r.name ++ p!"\t" ++ r.level) = [r.name, r.level] := by
    rw [List.append_assoc]
    unfold splitOn
    rw [show r.name ++ (p!"\t" ++ r.level) = r.name ++ '\t' :: r.level from rfl, splitP_append_sep (by decide), splitP_of_not_mem, splitP_of_not_mem]
    · rfl
    · intro c hc; simpa using (h2 c (by simp [hc])).1
    · intro c hc; simpa using (h2 c (by simp [hc])).1
  unfold oosRow
  rw [hsp]
  simp only [List.isEmpty_iff, h1, if_false, h3]

/-- An empty file, a file with another header and a row with a third column are refused. -/
theorem C199_refused (flt : Str → Option K) (a b c : Str) (h : ∀ x ∈ a ++ b ++ c, x ≠ '\t' ∧ x ≠ '\n' ∧ x ≠ '\r') :
    parseOos flt [] = .error .ValueError ∧ oosRow flt (a ++ p!"\t" ++ b ++ p!"\t" ++ c) = .error .ValueError ∧
      parseOos flt (p!"Nuclide,OOS Level\n") = .error .KeyError := by
  refine ⟨rfl, ?_, by
    have : (splitOn '\n' (univNL p!"Nuclide,OOS Level\n")).filter (fun l => !l.isEmpty) = [p!"Nuclide,OOS Level"] := by decide +kernel
    unfold parseOos
    rw [this]
    rfl⟩
  have hsp : splitOn '\t' (a ++ p!"\t" ++ b ++ p!"\t" ++ c) = [a, b, c] := by
    unfold splitOn
    rw [show a ++ p!"\t" ++ b ++ p!"\t" ++ c = a ++ '\t' :: (b ++ '\t' :: c) by simp, splitP_append_sep (by decide), splitP_append_sep (by decide),
      splitP_of_not_mem, splitP_of_not_mem, splitP_of_not_mem]
    · rfl
    · intro x hx; simpa using (h x (by simp [hx])).1
    · intro x hx; simpa using (h x (by simp [hx])).1
    · intro x hx; simpa using (h x (by simp [hx])).1
  unfold oosRow
  rw [hsp]

example : parseOos (fun s => (pyInt s).map (fun i : Int => (i : ℚ))) p!"Nuclide\tOOS Level\r\nH3\t100\r\nC14\t10\n" = .ok [(p!"H3", some 100), (p!"C14", some 10)] := by
  decide +kernel
example : osJoin p!"/opt/tools" p!"data/t1.txt" = p!"/opt/tools/data/t1.txt" ∧ osJoin p!"/opt" p!"/tmp/a" = p!"/tmp/a" := by decide +kernel

/-! ### C200: the limits that come with the program -/

/-- The texts of the levels are read as the numbers they denote. -/
def ReadsLevels (flt : Str → Option K) : Prop :=
  flt p!"0.01" = some (1 / 100) ∧ flt p!"0.1" = some (1 / 10) ∧ flt p!"1" = some 1 ∧ flt p!"10" = some 10 ∧ flt p!"100" = some 100 ∧
    flt p!"1000" = some 1000 ∧ flt p!"10000" = some 10000

/-- The value of a level of the file. -/
private def levelVal (l : Str) : K :=
  if l = p!"0.01" then 1 / 100 else if l = p!"0.1" then 1 / 10 else if l = p!"1" then 1 else if l = p!"10" then 10 else if l = p!"100" then 100
  else if l = p!"1000" then 1000 else 10000

private theorem levels_known : ∀ r ∈ t1Rows, r.2 ∈ [p!"0.01", p!"0.1", p!"1", p!"10", p!"100", p!"1000", p!"10000"] := by decide +kernel

private theorem levelVal_ok {flt : Str → Option K} (hf : ReadsLevels flt) {l : Str} (h : l ∈ [p!"0.01", p!"0.1", p!"1", p!"10", p!"100", p!"1000", p!"10000"]) :
    flt l = some (levelVal l) := by
  obtain ⟨h1, h2, h3, h4, h5, h6, h7⟩ := hf
  simp only [List.mem_cons, List.not_mem_nil, or_false] at h
  rcases h with rfl | rfl | rfl | rfl | rfl | rfl | rfl
  · rw [h1]; rfl
  · rw [h2]; rfl
  · rw [h3]; rfl
  · rw [h4]; rfl
  · rw [h5]; rfl
  · rw [h6]; rfl
  · rw [h7]; rfl

private def t1Limits : Limits K := t1Rows.map (fun r => (r.1, some (levelVal r.2)))

private theorem t1_parse {flt : Str → Option K} (hf : ReadsLevels flt) : parseOos flt t1Text = .ok t1Limits := by
  have h := C199_rows (flt := flt) (rows := t1Rows.map (fun r => ⟨r.1, r.2, levelVal r.2, p!"\r\n"⟩)) (eol := p!"\r\n") (by
    intro x hx
    obtain ⟨r, hr, rfl⟩ := List.mem_map.1 hx
    have hc : ∀ r ∈ t1Rows, r.2 ≠ [] ∧ ∀ c ∈ r.1 ++ r.2, c ≠ '\t' ∧ c ≠ '\n' ∧ c ≠ '\r' := by decide +kernel
    exact ⟨(hc r hr).1, (hc r hr).2, levelVal_ok hf (levels_known r hr), .inr rfl⟩) (.inr rfl)
  rw [List.map_map, List.flatMap_map] at h
  exact h

/-- The file is read completely: one row for each of its lines. -/
theorem C200_read {flt : Str → Option K} (hf : ReadsLevels flt) :
    ∃ oos, parseOos flt t1Text = .ok oos ∧ List.Forall₂ (fun (r : Str × Str) (o : Str × Option K) => o.1 = r.1 ∧ o.2 = flt r.2 ∧ o.2 ≠ none) t1Rows oos := by
  refine ⟨_, t1_parse hf, ?_⟩
  unfold t1Limits
  rw [List.forall₂_map_right_iff, List.forall₂_same]
  intro r hr
  exact ⟨rfl, (levelVal_ok hf (levels_known r hr)).symm, by simp⟩

/-- Every nuclide gets a decision, whatever its name. -/
theorem C200_decided {flt : Str → Option K} (hf : ReadsLevels flt) {oos : Limits K} (h : parseOos flt t1Text = .ok oos) (n : Str) (act : Option K)
    (mass : K) (hm : mass ≠ 0) : ∃ b, checkNuclideOos n act oos mass = .ok b := by
  rw [t1_parse hf, Except.ok.injEq] at h
  obtain ⟨h1, _, h3⟩ := C47_decision oos n act mass hm
  obtain ⟨b, hb, _⟩ := h1 (h3 ⟨(p!"Other", some (levelVal p!"0.01")), by
    rw [← h]
    exact List.mem_map.2 ⟨(p!"Other", p!"0.01"), by decide +kernel, rfl⟩, .inr rfl⟩)
  exact ⟨b, hb⟩

/-- Two entries for one nuclide have the same level, so the order of the lines has no influence. -/
theorem C200_order {flt : Str → Option K} (hf : ReadsLevels flt) {oos oos' : Limits K} (h : parseOos flt t1Text = .ok oos) (hp : oos'.Perm oos)
    (n : Str) (act : Option K) (mass : K) (hm : mass ≠ 0) : checkNuclideOos n act oos' mass = checkNuclideOos n act oos mass := by
  rw [t1_parse hf, Except.ok.injEq] at h
  have hd : ∀ r ∈ t1Rows, ∀ r' ∈ t1Rows, r.1 = r'.1 → r.2 = r'.2 := by decide +kernel
  have hfun : ∀ o ∈ oos, ∀ o' ∈ oos, o.1 = o'.1 → o.2 = o'.2 := by
    intro o ho o' ho' he
    rw [← h] at ho ho'
    obtain ⟨r, hr, rfl⟩ := List.mem_map.1 ho
    obtain ⟨r', hr', rfl⟩ := List.mem_map.1 ho'
    simp only at he ⊢
    rw [hd r hr r' hr' he]
  have hlev : ∀ l l', Level oos' n l → Level oos n l' → l = l' := by
    have hfirst : ∀ {o : Limits K} {m l}, FirstLevel o m l → (m, l) ∈ o := by
      rintro o m l ⟨a, b, rfl, _⟩; simp
    intro l l' h1 h2
    rcases h1 with h1 | ⟨n1, h1⟩ <;> rcases h2 with h2 | ⟨n2, h2⟩
    · exact hfun _ (hp.mem_iff.1 (hfirst h1)) _ (hfirst h2) rfl
    · exact absurd rfl (n2 _ (hp.mem_iff.1 (hfirst h1)))
    · exact absurd rfl (n1 _ (hp.mem_iff.2 (hfirst h2)))
    · exact hfun _ (hp.mem_iff.1 (hfirst h1)) _ (hfirst h2) rfl
  have hmem : ∃ r ∈ oos, r.1 = n ∨ r.1 = p!"Other" := ⟨(p!"Other", some (levelVal p!"0.01")), by
    rw [← h]
    exact List.mem_map.2 ⟨(p!"Other", p!"0.01"), by decide +kernel, rfl⟩, .inr rfl⟩
  obtain ⟨a1, _, a3⟩ := C47_decision oos n act mass hm
  obtain ⟨b1, _, b3⟩ := C47_decision oos' n act mass hm
  have e1 := a3 hmem
  have e2 := b3 (by obtain ⟨r, hr, h⟩ := hmem; exact ⟨r, hp.mem_iff.2 hr, h⟩)
  obtain ⟨b, hb, hbi⟩ := a1 e1
  obtain ⟨b', hb', hbi'⟩ := b1 e2
  obtain ⟨l, hl⟩ := e1
  obtain ⟨l', hl'⟩ := e2
  have hll := hlev l' l hl' hl
  have habove : AboveLevel oos' n act mass ↔ AboveLevel oos n act mass := by
    constructor
    · rintro ⟨x, a, h1, h2, h3⟩
      have := hlev _ l h1 hl
      exact ⟨x, a, by rw [this]; exact hl, h2, h3⟩
    · rintro ⟨x, a, h1, h2, h3⟩
      have := hlev l' _ hl' h1
      exact ⟨x, a, by rw [← this]; exact hl', h2, h3⟩
  rw [hb, hb']
  congr 1
  have : b' = false ↔ b = false := hbi'.trans (habove.trans hbi.symm)
  revert this
  cases b <;> cases b' <;> simp

/-- A nuclide that is not listed is judged at least as strictly as any listed one. -/
theorem C200_unlisted {flt : Str → Option K} (hf : ReadsLevels flt) {oos : Limits K} (h : parseOos flt t1Text = .ok oos) {n n' : Str}
    (hn : ∀ r ∈ oos, r.1 ≠ n) {act mass : K} (hm : mass ≠ 0) (hok : checkNuclideOos n (some act) oos mass = .ok true) :
    checkNuclideOos n' (some act) oos mass = .ok true := by
  obtain ⟨b, hb⟩ := C200_decided hf h n' (some act) mass hm
  rw [t1_parse hf, Except.ok.injEq] at h
  have hmem : ∀ m, ∃ r ∈ oos, r.1 = m ∨ r.1 = p!"Other" := fun m => ⟨(p!"Other", some (levelVal p!"0.01")), by
    rw [← h]
    exact List.mem_map.2 ⟨(p!"Other", p!"0.01"), by decide +kernel, rfl⟩, .inr rfl⟩
  obtain ⟨a1, _, a3⟩ := C47_decision oos n (some act) mass hm
  obtain ⟨b0, hb0, hbi0⟩ := a1 (a3 (hmem n))
  rw [hok] at hb0
  cases hb0
  obtain ⟨c1, _, c3⟩ := C47_decision oos n' (some act) mass hm
  obtain ⟨b1, hb1, hbi1⟩ := c1 (c3 (hmem n'))
  rw [hb] at hb1
  cases hb1
  cases b with
  | true => exact hb
  | false =>
    exfalso
    obtain ⟨l, a, hl, ha, hlt⟩ := hbi1.1 rfl
    obtain ⟨l0, hl0⟩ := a3 (hmem n)
    have hfirst : ∀ {o : Limits K} {m l}, FirstLevel o m l → (m, l) ∈ o := by
      rintro o m l ⟨a, b, rfl, _⟩; simp
    have hval : ∀ o ∈ oos, ∃ x, o.2 = some x ∧ 1 / 100 ≤ x := by
      intro o ho
      rw [← h] at ho
      obtain ⟨r, hr, rfl⟩ := List.mem_map.1 ho
      refine ⟨_, rfl, ?_⟩
      unfold levelVal
      split_ifs <;> norm_num
    have hother : ∀ o ∈ oos, o.1 = p!"Other" → o.2 = some (1 / 100) := by
      intro o ho he
      rw [← h] at ho
      obtain ⟨r, hr, rfl⟩ := List.mem_map.1 ho
      have hd : ∀ r ∈ t1Rows, r.1 = p!"Other" → r.2 = p!"0.01" := by decide +kernel
      simp only at he ⊢
      rw [hd r hr he]
      rfl
    rcases hl0 with hl0 | ⟨_, hl0⟩
    · exact hn _ (hfirst hl0) rfl
    · have e0 := hother _ (hfirst hl0) rfl
      simp only at e0
      have hge : (1 / 100 : K) ≤ l := by
        have : ∃ m, (m, some l) ∈ oos := by
          rcases hl with hl | ⟨_, hl⟩
          · exact ⟨_, hfirst hl⟩
          · exact ⟨_, hfirst hl⟩
        obtain ⟨m, hm⟩ := this
        obtain ⟨x, hx, hxl⟩ := hval _ hm
        simp only [Option.some.injEq] at hx
        rw [hx]; exact hxl
      have := hbi0.2 ⟨1 / 100, a, .inr ⟨hn, by rw [← e0]; exact hl0⟩, ha, lt_of_le_of_lt hge hlt⟩
      cases this

/-- A nuclide as FISPACT prints it: symbol of the element, mass number, and m for a metastable state. -/
def NuclideName (s : Str) : Prop :=
  ∃ el ds m, s = el ++ ds ++ m ∧ el ∈ Spec.elements ∧ ds ≠ [] ∧ (∀ c ∈ ds, c.isDigit = true) ∧ (m = [] ∨ m = p!"m")

private def nameOk (s : Str) : Bool :=
  Spec.elements.any (fun el => startsWith s el &&
    (let r := s.drop el.length
     let ds := r.takeWhile Char.isDigit
     let m := r.dropWhile Char.isDigit
     !ds.isEmpty && (m = [] || m = p!"m")))

private theorem nameOk_sound {s : Str} (h : nameOk s = true) : NuclideName s := by
  unfold nameOk at h
  rw [List.any_eq_true] at h
  obtain ⟨el, hel, h⟩ := h
  simp only [Bool.and_eq_true, startsWith_iff, Bool.or_eq_true, decide_eq_true_eq, Bool.not_eq_true', List.isEmpty_eq_false_iff] at h
  obtain ⟨⟨r, rfl⟩, h2, h3⟩ := h
  rw [List.drop_left] at h2 h3
  refine ⟨el, r.takeWhile Char.isDigit, r.dropWhile Char.isDigit, ?_, hel, h2, ?_, h3⟩
  · rw [List.append_assoc, List.takeWhile_append_dropWhile]
  · intro c hc
    exact List.mem_takeWhile_imp hc

/-- All entries but five are names of nuclides, or the entry for all others. -/
theorem C200_names_partial : ∀ r ∈ t1Rows, r.1 ∉ [p!"Other", p!"U230+", p!"Th232sec", p!"U235sec", p!"U238sec"] → NuclideName r.1 := by
  have h : t1Rows.all (fun r => decide (r.1 ∈ [p!"Other", p!"U230+", p!"Th232sec", p!"U235sec", p!"U238sec"]) || nameOk r.1) = true := by
    decide +kernel
  intro r hr hn
  have := List.all_eq_true.1 h r hr
  simp only [Bool.or_eq_true, decide_eq_true_eq] at this
  exact nameOk_sound (this.resolve_left hn)

/-- Four entries are not, so no inventory ever uses them: U230+ and the entries for decay chains. -/
theorem C200_names_violated : ∀ n ∈ [p!"U230+", p!"Th232sec", p!"U235sec", p!"U238sec"], (∃ l, (n, l) ∈ t1Rows) ∧ ¬ NuclideName n := by
  have hlast : ∀ s, NuclideName s → ∃ c, s.getLast? = some c ∧ (c.isDigit = true ∨ c = 'm') := by
    rintro s ⟨el, ds, m, rfl, _, hd, hdig, hm⟩
    rcases hm with rfl | rfl
    · rw [List.append_nil]
      refine ⟨ds.getLast hd, ?_, .inl (hdig _ (List.getLast_mem hd))⟩
      rw [List.getLast?_append, List.getLast?_eq_some_getLast hd]
      rfl
    · exact ⟨'m', by simp, .inr rfl⟩
  intro n hn
  constructor
  · revert n
    have : ∀ n ∈ [p!"U230+", p!"Th232sec", p!"U235sec", p!"U238sec"], (n, if n = p!"U230+" then p!"1" else p!"0.01") ∈ t1Rows := by decide +kernel
    exact fun n hn => ⟨_, this n hn⟩
  · intro h
    obtain ⟨c, h1, h2⟩ := hlast n h
    simp only [List.mem_cons, List.not_mem_nil, or_false] at hn
    rcases hn with rfl | rfl | rfl | rfl <;>
    · simp only [List.getLast?_cons_cons, List.getLast?_singleton, Option.some.injEq] at h1
      subst h1
      revert h2
      decide

/-- So U230 is judged by the level for all others, a hundredth of that of its entry. -/
theorem C200_u230_violated {flt : Str → Option K} (hf : ReadsLevels flt) {oos : Limits K} (h : parseOos flt t1Text = .ok oos) :
    (p!"U230+", some 1) ∈ oos ∧ checkNuclideOos p!"U230" (some 500) oos 1000 = .ok false := by
  obtain ⟨b, hb⟩ := C200_decided hf h p!"U230" (some 500) 1000 (by norm_num)
  rw [t1_parse hf, Except.ok.injEq] at h
  refine ⟨by rw [← h]; exact List.mem_map.2 ⟨(p!"U230+", p!"1"), by decide +kernel, rfl⟩, ?_⟩
  obtain ⟨a1, _, a3⟩ := C47_decision oos p!"U230" (some 500) 1000 (by norm_num)
  have hmem : (p!"Other", some (levelVal p!"0.01")) ∈ oos := by
    rw [← h]
    exact List.mem_map.2 ⟨(p!"Other", p!"0.01"), by decide +kernel, rfl⟩
  have hn : ∀ r ∈ oos, r.1 ≠ p!"U230" := by
    intro o ho
    rw [← h] at ho
    obtain ⟨r, hr, rfl⟩ := List.mem_map.1 ho
    have hd : ∀ r ∈ t1Rows, r.1 ≠ p!"U230" := by decide +kernel
    exact hd r hr
  obtain ⟨l, hl⟩ := a3 ⟨_, hmem, .inr rfl⟩
  obtain ⟨b', hb', hbi⟩ := a1 ⟨l, hl⟩
  have hl2 : Level oos p!"U230" (some (1 / 100)) := by
    rcases hl with ⟨x, y, rfl, _⟩ | ⟨_, hl⟩
    · exact absurd rfl (hn (p!"U230", l) (by simp))
    · have : l = some (1 / 100) := by
        obtain ⟨x, y, he, _⟩ := hl
        have hin : (p!"Other", l) ∈ oos := by rw [he]; simp
        rw [← h] at hin
        obtain ⟨r, hr, hre⟩ := List.mem_map.1 hin
        simp only [Prod.mk.injEq] at hre
        have hd : ∀ r ∈ t1Rows, r.1 = p!"Other" → r.2 = p!"0.01" := by decide +kernel
        rw [← hre.2, hd r hr hre.1]
        rfl
      rw [this] at hl
      exact .inr ⟨hn, hl⟩
  have : b' = false := hbi.2 ⟨1 / 100, 500, hl2, rfl, by norm_num⟩
  rw [hb', this]

example : NuclideName p!"Co58m" := nameOk_sound (by decide +kernel)
example : ∃ flt : Str → Option ℚ, ReadsLevels flt :=
  ⟨fun s => some (levelVal s), rfl, rfl, rfl, rfl, rfl, rfl, rfl⟩
example : t1Rows.length = 285 := by decide +kernel

end Props
