/- Properties C90-C92 and C15: tally cards, numbers, vised_compatible, wrapped cards (mcnp_input_reader.py). -/
import Verif.Props.McnpInput2

set_option linter.unusedSectionVars false
set_option linter.unusedSimpArgs false

namespace Props
open Py NeutUtilities McnpInput Spec.Mcnp
variable {F : Type}

private theorem words_eq' {f : Str → List Str} (hf : ∀ s, Spec.IsWords s (f s)) : f = splitWs := by
  funext s; exact (splitWs_of_isWords (hf s)).symm

/-! ### C90 -/

/-- Some line starts with the card name (any case) followed by a blank. -/
def HasCard (lines : List Str) (name : Str) : Prop := ∃ l ∈ lines, ∃ nm rest, l = nm ++ ' ' :: rest ∧ lower nm = name

private theorem isCardPresent_iff {lines : List Str} {name : Str} (hn : lower name = name) :
    isCardPresent lines (name ++ p!" ") = true ↔ HasCard lines name := by
  unfold isCardPresent HasCard
  rw [List.any_eq_true]
  refine exists_congr fun l => and_congr_right fun _ => ?_
  rw [startsWith_iff]
  have hl : lower (name ++ p!" ") = name ++ p!" " := by
    show List.map _ _ = _
    rw [List.map_append]
    unfold lower at hn
    rw [hn]; rfl
  rw [hl]
  constructor
  · rintro ⟨t, ht⟩
    rw [List.append_assoc] at ht
    obtain ⟨x, y, rfl, h1, h2⟩ := lower_eq_append ht.symm
    cases y with
    | nil => simp [lower] at h2
    | cons c cs =>
      simp only [lower, List.map_cons, List.cons_append, List.nil_append, List.cons.injEq] at h2
      rw [(toLower_eq_low (by decide)).1 h2.1]
      exact ⟨x, cs, rfl, h1⟩
  · rintro ⟨nm, rest, rfl, h⟩
    refine ⟨lower rest, ?_⟩
    rw [← h]
    simp [lower]

private theorem lower_card (a : Str) (n : Nat) (ha : lower a = a) : lower (a ++ natStr n) = a ++ natStr n := by
  show List.map _ _ = _
  rw [List.map_append]
  have := natStr_lower n
  unfold lower at this ha
  rw [this, ha]

/-- C90 (part that holds): number, text (the words of the card over all its lines, joined by single blanks) and the flags for
    energy bins, time bins and multiplier. Missing: the documented attributes has_sd_card and has_fc_comment
    (`C90_documented_flags_violated`). -/
theorem C90_tally_partial (n : Nat) (lines : List Str) (f : Str → List Str) (hf : ∀ s, Spec.IsWords s (f s)) :
    (readTallyLines n lines).number = n ∧
    ((∀ l ∈ lines, ¬ TalHead n l) → (readTallyLines n lines).data = []) ∧
    (∀ first body, Card (TalHead n) lines first body →
      (readTallyLines n lines).data = join p!" " ((cardText first body).flatMap f)) ∧
    ((readTallyLines n lines).hasEbins = true ↔ HasCard lines (p!"e" ++ natStr n)) ∧
    ((readTallyLines n lines).hasTbins = true ↔ HasCard lines (p!"t" ++ natStr n)) ∧
    ((readTallyLines n lines).hasFm = true ↔ HasCard lines (p!"fm" ++ natStr n)) := by
  rw [words_eq' hf]
  refine ⟨rfl, ?_, ?_, ?_, ?_, ?_⟩
  · intro h
    show stringCleaner (join p!" " (scan (talStart n) false lines)) = []
    rw [scan_absent (fun _ => talStart_iff) h]; rfl
  · intro first body h
    show stringCleaner (join p!" " (scan (talStart n) false lines)) = _
    rw [scan_card (talStart_good _) (fun _ => talStart_iff) h, stringCleaner_eq, splitWs_join_lines]
  · exact isCardPresent_iff (lower_card p!"e" n rfl)
  · exact isCardPresent_iff (lower_card p!"t" n rfl)
  · exact isCardPresent_iff (lower_card p!"fm" n rfl)

/-- C90: segment divisor and comment cards are recorded, but in attributes the tally object does not declare. -/
theorem C90_undocumented_flags_partial (n : Nat) (lines : List Str) :
    ((readTallyLines n lines).hasSd = true ↔ HasCard lines (p!"sd" ++ natStr n)) ∧
    ((readTallyLines n lines).hasFc = true ↔ HasCard lines (p!"fc" ++ natStr n)) :=
  ⟨isCardPresent_iff (lower_card p!"sd" n rfl), isCardPresent_iff (lower_card p!"fc" n rfl)⟩

/-- C90 is violated: the documented attributes stay False for every tally, also when the cards are present. -/
theorem C90_documented_flags_violated :
    (∀ n lines, (readTallyLines n lines).hasSdCard = false ∧ (readTallyLines n lines).hasFcComment = false) ∧
    HasCard [p!"f4:n 1", p!"sd4 1", p!"fc4 text"] p!"sd4" ∧ HasCard [p!"f4:n 1", p!"sd4 1", p!"fc4 text"] p!"fc4" :=
  ⟨fun _ _ => ⟨rfl, rfl⟩, ⟨p!"sd4 1", by simp, p!"sd4", p!"1", rfl, rfl⟩, ⟨p!"fc4 text", by simp, p!"fc4", p!"text", rfl, rfl⟩⟩

/-- C90: the attribute `tal_type` is the tally number as text, not the type. -/
theorem C90_tal_type (n : Nat) (lines : List Str) (first : Str) (body : List Str) (h : Card (TalHead n) lines first body) :
    (readTallyLines n lines).talType = natStr n := by
  show ((splitOn ':' ((splitOn ' ' (stringCleaner (join p!" " (scan (talStart n) false lines)))).headD [])).headD []).drop 1 = _
  rw [scan_card (talStart_good _) (fun _ => talStart_iff) h, splitOn_stringCleaner_headD, splitWs_join_lines]
  obtain ⟨_, _, _, _, ⟨x, rest, rfl, hx, hr⟩, _, _⟩ := h
  have hcode : lower (code (x :: (natStr n ++ rest))) = 'f' :: (natStr n ++ lower (code rest)) := by
    unfold code
    rw [List.takeWhile_cons_of_pos (by rcases hx with rfl | rfl <;> decide), List.takeWhile_append_of_pos]
    · have hl : x.toLower = 'f' := by rcases hx with rfl | rfl <;> rfl
      show x.toLower :: List.map _ _ = _
      rw [hl, List.map_append]
      have := natStr_lower n
      unfold lower at this ⊢
      rw [this]
    · intro c hc
      simp only [ne_eq, decide_not, Bool.not_eq_eq_eq_not, Bool.not_true, decide_eq_false_iff_not]
      rintro rfl; exact absurd (natStr_isDigit hc) (by decide)
  unfold cardText
  rw [List.flatMap_cons, hcode]
  have hsp : isSpace 'f' = false := by decide
  have h1 := splitWs_headD (cs := natStr n ++ lower (code rest)) hsp
  have hne : splitWs ('f' :: (natStr n ++ lower (code rest))) ≠ [] := by
    intro h0
    rw [h0, List.takeWhile_cons_of_pos (by decide)] at h1
    simp at h1
  obtain ⟨w, ws, hws⟩ := List.exists_cons_of_ne_nil hne
  rw [hws] at h1 ⊢
  simp only [List.headD_cons, List.cons_append] at h1 ⊢
  rw [h1, splitOn_headD]
  have hw : ∀ c ∈ 'f' :: natStr n, (!isSpace c) = true := by
    simp only [List.mem_cons, forall_eq_or_imp]
    exact ⟨by decide, fun c hc => by simp [isDigit_not_space (natStr_isDigit hc)]⟩
  have hw2 : ∀ c ∈ 'f' :: natStr n, decide (c ≠ ':') = true := by
    simp only [List.mem_cons, forall_eq_or_imp]
    refine ⟨by decide, fun c hc => ?_⟩
    simp only [decide_eq_true_eq]
    rintro rfl; exact absurd (natStr_isDigit hc) (by decide)
  rw [show 'f' :: (natStr n ++ lower (code rest)) = ('f' :: natStr n) ++ lower (code rest) from rfl,
    List.takeWhile_append_of_pos hw, List.takeWhile_append_of_pos hw2]
  have : ((lower (code rest)).takeWhile (fun d => !isSpace d)).takeWhile (fun c => decide (c ≠ ':')) = [] := by
    rcases hr with rfl | hr | hr
    · rfl
    · cases rest with
      | nil => rfl
      | cons c cs =>
        simp only [List.head?_cons, Option.some.injEq] at hr
        subst hr
        simp [code, lower, List.takeWhile]
        have : isSpace ' ' = true := by decide
        simp [this]
    · cases rest with
      | nil => rfl
      | cons c cs =>
        simp only [List.head?_cons, Option.some.injEq] at hr
        subst hr
        simp [code, lower, List.takeWhile]
        have : isSpace ':' = false := by decide
        simp [this]
  rw [this]; simp

example : readTallyLines 14 [p!"f4:n 9", p!"F14:n 1 2 $ x", p!"     3", p!"e14 1 2", p!"sd14 1"] =
    { number := 14, talType := p!"14", data := p!"f14:n 1 2 3", hasEbins := true, hasSd := true } := by decide +kernel

/-- A starred tally is not found: its card is ignored and the empty text returned. -/
theorem C90_starred_tally_lost : (readTallyLines 4 [p!"*f4:n 1 2"]).data = [] := by decide +kernel

/-! ### C91 -/

/-- A line that starts with the letter (either case) and a digit. -/
def Numbered (x X : Char) (l : Str) : Prop := ∃ a d rest, l = a :: d :: rest ∧ (a = x ∨ a = X) ∧ d.isDigit = true

/-- Such a line with number `n`, which ends at a character satisfying `sep` or at the end of the line. -/
def NumberedBy (x X : Char) (sep : Char → Prop) (l : Str) (n : Nat) : Prop :=
  ∃ a rest, l = a :: (natStr n ++ rest) ∧ (a = x ∨ a = X) ∧ ∀ c ∈ rest.head?, sep c

private theorem letterDigit_iff {x X : Char} (h1 : 97 ≤ x.toNat) (h2 : x.toNat ≤ 122) (h3 : X.toNat + 32 = x.toNat) {l : Str} :
    letterDigit x l = true ↔ Numbered x X l := by
  constructor
  · intro h
    match l, h with
    | [], h => simp [letterDigit] at h
    | [_], h => simp [letterDigit] at h
    | a :: d :: rest, h =>
      simp only [letterDigit, Bool.and_eq_true, beq_iff_eq] at h
      exact ⟨a, d, rest, rfl, (toLower_eq_letter x X h1 h2 h3).1 h.1, h.2⟩
  · rintro ⟨a, d, rest, rfl, ha, hd⟩
    simp only [letterDigit, Bool.and_eq_true, beq_iff_eq]
    exact ⟨(toLower_eq_letter x X h1 h2 h3).2 ha, hd⟩

private theorem takeWhile_number {x X : Char} {p : Char → Bool} (hx : isSpace x = false) (hX : isSpace X = false)
    (hpx : p x = true) (hpX : p X = true) (hp : ∀ c : Char, c.isDigit = true → p c = true) {sep : Char → Prop}
    (hsep : ∀ c, sep c → isSpace c = true ∨ p c = false) {l : Str} {n : Nat} (h : NumberedBy x X sep l n) :
    (((splitWs l).headD []).takeWhile p).drop 1 = natStr n := by
  obtain ⟨a, rest, rfl, ha, hr⟩ := h
  have hs : isSpace a = false := by rcases ha with rfl | rfl <;> assumption
  have hpa : p a = true := by rcases ha with rfl | rfl <;> assumption
  have h1 : ∀ c ∈ a :: natStr n, (!isSpace c) = true := by
    simp only [List.mem_cons, forall_eq_or_imp]
    exact ⟨by simp [hs], fun c hc => by simp [isDigit_not_space (natStr_isDigit hc)]⟩
  have h2 : ∀ c ∈ a :: natStr n, p c = true := by
    simp only [List.mem_cons, forall_eq_or_imp]
    exact ⟨hpa, fun c hc => hp c (natStr_isDigit hc)⟩
  rw [splitWs_headD hs, show a :: (natStr n ++ rest) = (a :: natStr n) ++ rest from rfl,
    List.takeWhile_append_of_pos h1, List.takeWhile_append_of_pos h2]
  have : (rest.takeWhile (fun d => !isSpace d)).takeWhile p = [] := by
    cases rest with
    | nil => rfl
    | cons c cs =>
      rcases hsep c (hr c (by simp)) with h | h
      · rw [List.takeWhile_cons_of_neg (by simp [h])]; rfl
      · by_cases hc : isSpace c = true
        · rw [List.takeWhile_cons_of_neg (by simp [hc])]; rfl
        · rw [List.takeWhile_cons_of_pos (by simpa using hc), List.takeWhile_cons_of_neg (by simp [h])]
  rw [this]; simp

/-- C91: material numbers: all lines m<digit> in order, when the number on each is followed by white space or the end. -/
theorem C91_material_numbers (lines cards : List Str) (ns : List Nat)
    (hc : ∃ p : Str → Bool, (∀ l, p l = true ↔ Numbered 'm' 'M' l) ∧ lines.filter p = cards)
    (h : List.Forall₂ (NumberedBy 'm' 'M' (fun c => isSpace c = true)) cards ns) :
    getMaterialNumbers lines = .ok (ns.map (fun (n : Nat) => (n : Int))) := by
  obtain ⟨p, hp, rfl⟩ := hc
  unfold getMaterialNumbers
  have : lines.filter (letterDigit 'm') = lines.filter p := by
    apply List.filter_congr
    intro l _
    rw [Bool.eq_iff_iff, hp, letterDigit_iff (X := 'M') (by decide) (by decide) (by decide)]
  rw [this, mapM_except_ok_iff, List.forall₂_map_right_iff]
  refine h.imp ?_
  intro l n hl
  rw [orErr_ok_iff, splitOn_stringCleaner_headD]
  have := takeWhile_number (p := fun _ => true) (by decide) (by decide) rfl rfl (by simp) (fun c hc => .inl hc) hl
  rw [List.takeWhile_eq_self_iff.2 (by simp)] at this
  rw [this, pyInt_natStr]

/-- C91: tally numbers: all lines f<digit> in order, when the number on each is followed by white space, a colon or the end. -/
theorem C91_tally_numbers (lines cards : List Str) (ns : List Nat)
    (hc : ∃ p : Str → Bool, (∀ l, p l = true ↔ Numbered 'f' 'F' l) ∧ lines.filter p = cards)
    (h : List.Forall₂ (NumberedBy 'f' 'F' (fun c => isSpace c = true ∨ c = ':')) cards ns) :
    getTallyNumbers lines = .ok (ns.map (fun (n : Nat) => (n : Int))) := by
  obtain ⟨p, hp, rfl⟩ := hc
  unfold getTallyNumbers
  have : lines.filter (letterDigit 'f') = lines.filter p := by
    apply List.filter_congr
    intro l _
    rw [Bool.eq_iff_iff, hp, letterDigit_iff (X := 'F') (by decide) (by decide) (by decide)]
  rw [this, mapM_except_ok_iff, List.forall₂_map_right_iff]
  refine h.imp ?_
  intro l n hl
  rw [orErr_ok_iff, splitOn_stringCleaner_headD, splitOn_headD]
  have := takeWhile_number (p := fun c => decide (c ≠ ':')) (by decide) (by decide) (by decide) (by decide)
    (by intro c hc; simp only [decide_eq_true_eq]; rintro rfl; exact absurd hc (by decide))
    (fun c hc => by rcases hc with hc | rfl; exact .inl hc; exact .inr (by decide)) hl
  rw [this, pyInt_natStr]

/-- C91: the only error is ValueError. -/
theorem C91_error (lines : List Str) (e : Err) :
    (getMaterialNumbers lines = .error e → e = .ValueError) ∧ (getTallyNumbers lines = .error e → e = .ValueError) := by
  constructor
  · intro h
    obtain ⟨l, _, h⟩ := mapM_except_err h
    exact (orErr_err_iff.1 h).2
  · intro h
    obtain ⟨l, _, h⟩ := mapM_except_err h
    exact (orErr_err_iff.1 h).2

/-- C91: number limits. -/
theorem C91_limits (n : Int) :
    (isValidMatNum n = true ↔ n ≤ 99999999) ∧ (isValidSurfNum n = true ↔ n ≤ 99999999) ∧
    (isValidCellNum n = true ↔ n ≤ 99999999) ∧ (isValidTallyNum n = true ↔ n ≤ 99999999) ∧
    (isValidUniverseNum n = true ↔ n ≤ 99999999) ∧ (isNumberOfTalliesValid n = true ↔ n ≤ 9999) := by
  simp [isValidMatNum, isValidSurfNum, isValidCellNum, isValidTallyNum, isValidUniverseNum, isNumberOfTalliesValid, isValidNumber]

example : getMaterialNumbers [p!"m1 1001 1", p!"mt1 x", p!"M23", p!"mode n"] = .ok [1, 23] := by decide +kernel
example : getTallyNumbers [p!"f4:n 1", p!"fm4 1", p!"F15:p 0 0 0"] = .ok [4, 15] := by decide +kernel
example : getMaterialNumbers [p!"m1$x"] = .error .ValueError := by decide +kernel

/-! ### C92 -/

private theorem replaced_grow {old new s t : Str} (h : Spec.Replaced old new s t) (hl : old.length < new.length) :
    s.length ≤ t.length ∧ (old <:+: s → s.length < t.length ∧ new <:+: t) := by
  induction h with
  | done h => exact ⟨le_refl _, fun h' => absurd h' h⟩
  | hit h1 h2 ih =>
    rename_i pre rest out
    have := ih.1
    refine ⟨by simp; omega, fun _ => ⟨by simp; omega, ?_⟩⟩
    exact ⟨pre, out, by simp⟩

/-- C92 (part that holds): a file without "mphys" is the same after the first and the second run. Missing: any file with it
    (`C92_violated`). -/
theorem C92_absent_partial (fs : FS) (fname content : Str) (h : fs.node fname = some (.file content))
    (hw : fs.canWrite fname = true) (ha : ¬ p!"mphys" <:+: univNL content) :
    ∃ fs1, visedCompatible fname fs = (.ok (), fs1) ∧ fs1.node fname = some (.file (univNL content)) ∧
      (visedCompatible fname fs1).1 = .ok () ∧ ∀ q, (visedCompatible fname fs1).2.node q = fs1.node q := by
  have h1 : visedCompatible fname fs = (.ok (), fs.put fname (.file (univNL content))) := by
    unfold visedCompatible textReplace
    rw [PyM.bind_ok (a := univNL content) (fs' := fs) (by simp [readText, h]), replace_of_ne_nil (by simp), replaceAux_absent ha]
    simp [writeText, hw]
  refine ⟨_, h1, put_self, ?_⟩
  have hcw : (fs.put fname (.file (univNL content))).canWrite fname = true := by
    unfold FS.canWrite at hw ⊢
    simp only [Bool.and_eq_true] at hw ⊢
    refine ⟨⟨hw.1.1, ?_⟩, by simp [put_self]⟩
    have h2 := hw.1.2
    unfold FS.parentOk at h2 ⊢
    split
    · rfl
    · rfl
    · rename_i d hne hd
      rw [hd] at h2
      cases d with
      | nil => exact absurd rfl hne
      | cons a as =>
        simp only [decide_eq_true_eq] at h2 ⊢
        by_cases hdf : a :: as = fname
        · rw [hdf, h] at h2; simp at h2
        · rw [put_other hdf]; exact h2
  have h2 : visedCompatible fname (fs.put fname (.file (univNL content))) =
      (.ok (), (fs.put fname (.file (univNL content))).put fname (.file (univNL content))) := by
    unfold visedCompatible textReplace
    have hu : univNL (univNL content) = univNL content := univNL_eq_self (not_mem_univNL _)
    rw [PyM.bind_ok (a := univNL content) (fs' := fs.put fname (.file (univNL content))) (by simp [readText, put_self, hu]),
      replace_of_ne_nil (by simp), replaceAux_absent ha]
    simp [writeText, hcw]
  rw [h2]
  refine ⟨rfl, fun q => ?_⟩
  by_cases hq : q = fname
  · subst hq; rw [put_self, put_self]
  · rw [put_other hq]

/-- C92 is violated by every file (without carriage returns) that contains "mphys": every run makes it longer. -/
theorem C92_violated (fs : FS) (fname content : Str) (h : fs.node fname = some (.file content)) (hr : '\r' ∉ content)
    (hw : fs.canWrite fname = true) (hp : p!"mphys" <:+: content) :
    ∃ out, visedCompatible fname fs = (.ok (), fs.put fname (.file out)) ∧ content.length < out.length ∧ p!"mphys" <:+: out ∧ '\r' ∉ out := by
  have hrep := replaceAux_replaced (old := p!"mphys") (new := p!"c mphys") (by simp) content
  have hg := replaced_grow hrep (by decide)
  refine ⟨replaceAux p!"mphys" p!"c mphys" 0 content, ?_, (hg.2 hp).1, ?_, ?_⟩
  · unfold visedCompatible textReplace
    rw [PyM.bind_ok (a := content) (fs' := fs) (by simp [readText, h, univNL_eq_self hr]), replace_of_ne_nil (by simp)]
    simp [writeText, hw]
  · exact List.IsInfix.trans ⟨p!"c ", [], rfl⟩ (hg.2 hp).2
  · have : ∀ {s t : Str}, Spec.Replaced p!"mphys" p!"c mphys" s t → '\r' ∉ s → '\r' ∉ t := by
      intro s t h
      induction h with
      | done _ => exact id
      | hit _ _ ih =>
        intro hs
        simp only [List.mem_append, not_or] at hs ⊢
        exact ⟨⟨hs.1.1, by decide⟩, ih hs.2⟩
    exact this hrep hr

example : replaceAux p!"mphys" p!"c mphys" 0 (replaceAux p!"mphys" p!"c mphys" 0 p!"a\nmphys on\n") = p!"a\nc c mphys on\n" := by decide

end Props
