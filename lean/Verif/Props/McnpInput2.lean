/- Properties C83, C84, C90-C92, C15: material and tally cards of MCNP input files (mcnp_input_reader.py). -/
import Verif.Props.McnpInput

set_option linter.unusedSectionVars false
set_option linter.unusedSimpArgs false

namespace Props
open Py NeutUtilities McnpInput Spec.Mcnp
variable {F : Type}

/-! ### C83 -/

private theorem words_eq {f : Str → List Str} (hf : ∀ s, Spec.IsWords s (f s)) : f = splitWs := by
  funext s; exact (splitWs_of_isWords (hf s)).symm

private theorem kw_mem (w : Str) : w ∈ validKeywords ↔ w ∈ keywordNames := by
  have h1 : ∀ w ∈ validKeywords, w ∈ keywordNames := by decide
  have h2 : ∀ w ∈ keywordNames, w ∈ validKeywords := by decide
  exact ⟨h1 w, h2 w⟩

/-- Keyword entry `k=v`, or `k=v1=v2...`. -/
def KwEntry (w k : Str) : KwVal → Prop
  | .one v => w = k ++ '=' :: v ∧ '=' ∉ k ∧ '=' ∉ v
  | .many l => w = k ++ '=' :: join p!"=" l ∧ '=' ∉ k ∧ 2 ≤ l.length ∧ ∀ x ∈ l, '=' ∉ x

private def kwPair (w : Str) : Str × KwVal :=
  ((splitOn '=' w).headD [],
    if (splitOn '=' w).length = 2 then .one ((splitOn '=' w).getLastD []) else .many ((splitOn '=' w).drop 1))

private theorem kws_eq (ws : List Str) :
    (ws.filter (fun w => hasSub p!"=" w)).foldl processKeyword [] =
      ((ws.filter (fun w => hasSub p!"=" w)).map kwPair).foldl (fun (d : Dict Str KwVal) e => d.set e.1 e.2) [] := by
  rw [List.foldl_map]; rfl

private theorem kwPair_iff {w k : Str} {v : KwVal} (hw : '=' ∈ w) : kwPair w = (k, v) ↔ KwEntry w k v := by
  have hlen : ¬ (splitOn '=' w).length < 2 := by rw [splitOn_length_lt_two]; simpa using hw
  obtain ⟨a, l, hs⟩ : ∃ a l, splitOn '=' w = a :: l := by
    cases h : splitOn '=' w with
    | nil => rw [h] at hlen; simp at hlen
    | cons a l => exact ⟨a, l, rfl⟩
  have hl : l ≠ [] := by rintro rfl; rw [hs] at hlen; simp at hlen
  unfold kwPair
  rw [hs]
  have hd := (splitOn_eq_cons hl).1 hs
  cases v with
  | one v =>
    simp only [List.headD_cons, KwEntry]
    constructor
    · intro h
      obtain ⟨rfl, h2⟩ := Prod.mk.inj h
      split at h2
      · rename_i h3
        obtain ⟨y, rfl⟩ : ∃ y, l = [y] := List.length_eq_one_iff.1 (by simpa using h3)
        simp at h2
        subst h2
        exact ⟨by simpa [join] using hd.1, hd.2.1, hd.2.2 y (by simp)⟩
      · simp at h2
    · rintro ⟨rfl, h2, h3⟩
      have : splitOn '=' (k ++ '=' :: v) = k :: [v] := by
        rw [splitOn_eq_cons (by simp)]
        exact ⟨rfl, h2, by simpa using h3⟩
      rw [hs] at this
      simp only [List.cons.injEq] at this
      obtain ⟨rfl, rfl⟩ := this
      simp
  | many m =>
    simp only [List.headD_cons, KwEntry]
    constructor
    · intro h
      obtain ⟨rfl, h2⟩ := Prod.mk.inj h
      split at h2
      · simp at h2
      · rename_i h3
        simp at h2 h3
        subst h2
        refine ⟨hd.1, hd.2.1, ?_, hd.2.2⟩
        have : l.length ≠ 0 := by simpa using hl
        omega
    · rintro ⟨rfl, h2, h3, h4⟩
      have hm : m ≠ [] := by rintro rfl; simp at h3
      have : splitOn '=' (k ++ '=' :: join p!"=" m) = k :: m := (splitOn_eq_cons hm).2 ⟨rfl, h2, h4⟩
      rw [hs] at this
      simp only [List.cons.injEq] at this
      obtain ⟨rfl, rfl⟩ := this
      have : ¬ (a :: l).length = 2 := by simp; omega
      rw [if_neg this]; simp

private theorem kwPair_fst (w : Str) : (kwPair w).1 = w.takeWhile (· ≠ '=') := splitOn_headD '=' w

private theorem readMaterial_eq (flt : Str → Option F) (n : Nat) (lines : List Str) (first : Str) (body : List Str)
    (h : Card (MatHead n) lines first body) :
    readMaterialLines flt (n : Int) lines =
      if (∃ w ∈ cardWords splitWs first body, '=' ∈ w ∧ w.takeWhile (· ≠ '=') ∉ keywordNames) then .error .ValueError
      else (pairs flt ((cardWords splitWs first body).filter (fun w => decide ('=' ∉ w))) []).map (fun comp =>
        { number := n, composition := comp,
          keywords := (((cardWords splitWs first body).filter (fun w => hasSub p!"=" w)).map kwPair).foldl
            (fun (d : Dict Str KwVal) e => d.set e.1 e.2) [],
          numNuclides := comp.length, thermal := getCardLines lines (p!"mt" ++ natStr n),
          mx := getCardLines lines (p!"mx" ++ natStr n) }) := by
  unfold readMaterialLines processMaterialLine
  rw [scan_card (matStart_good _) (fun _ => matStart_iff) h]
  simp only [splitOn_stringCleaner_drop _ 1 (by decide), splitWs_join_lines, kws_eq]
  have hcw : (List.flatMap splitWs (cardText first body)).drop 1 = cardWords splitWs first body := rfl
  rw [hcw]
  have hfil : (cardWords splitWs first body).filter (fun w => !hasSub p!"=" w) =
      (cardWords splitWs first body).filter (fun w => decide ('=' ∉ w)) := by
    apply List.filter_congr
    intro w _
    rw [Bool.eq_iff_iff]
    simp only [Bool.not_eq_true', Bool.eq_false_iff, ne_eq, hasSub_singleton, decide_eq_true_eq]
  rw [hfil]
  have hany : ((((cardWords splitWs first body).filter (fun w => hasSub p!"=" w)).map kwPair).foldl
            (fun (d : Dict Str KwVal) e => d.set e.1 e.2) []).keys.any (fun k => !validKeywords.contains k) = true ↔
      ∃ w ∈ cardWords splitWs first body, '=' ∈ w ∧ w.takeWhile (· ≠ '=') ∉ keywordNames := by
    rw [List.any_eq_true]
    constructor
    · rintro ⟨k, hk, hv⟩
      rw [Dict.mem_keys_foldl_set] at hk
      rcases hk with hk | ⟨e, he, rfl⟩
      · simp [Dict.keys] at hk
      · rw [List.mem_map] at he
        obtain ⟨w, hw, rfl⟩ := he
        rw [List.mem_filter, hasSub_singleton] at hw
        refine ⟨w, hw.1, hw.2, ?_⟩
        rw [← kwPair_fst, ← kw_mem]
        simpa using hv
    · rintro ⟨w, hw, h1, h2⟩
      refine ⟨(kwPair w).1, ?_, ?_⟩
      · rw [Dict.mem_keys_foldl_set]
        right
        exact ⟨kwPair w, List.mem_map_of_mem (List.mem_filter.2 ⟨hw, hasSub_singleton.2 h1⟩), rfl⟩
      · rw [← kwPair_fst, ← kw_mem] at h2
        simpa using h2
  by_cases hk : ∃ w ∈ cardWords splitWs first body, '=' ∈ w ∧ w.takeWhile (· ≠ '=') ∉ keywordNames
  · rw [if_pos hk, if_pos (hany.2 hk)]; rfl
  · rw [if_neg hk, if_neg (fun h' => hk (hany.1 h'))]
    cases pairs flt ((cardWords splitWs first body).filter (fun w => decide ('=' ∉ w))) [] <;> rfl

/-- C83: a material card with pairs of identifier and fraction and with known keywords. Last definition wins; keywords are
    read as well, and the mt and mx cards of the material are attached. -/
theorem C83_material (flt : Str → Option F) (n : Nat) (lines : List Str) (first : Str) (body : List Str)
    (f : Str → List Str) (hf : ∀ s, Spec.IsWords s (f s)) (h : Card (MatHead n) lines first body)
    (es : List (Str × Str × F)) (hes : ∀ e ∈ es, flt e.2.1 = some e.2.2)
    (hw : (cardWords f first body).filter (fun w => decide ('=' ∉ w)) = es.flatMap (fun e => [e.1, e.2.1]))
    (hk : ∀ w ∈ cardWords f first body, '=' ∈ w → w.takeWhile (· ≠ '=') ∈ keywordNames) :
    ∃ m, readMaterialLines flt n lines = .ok m ∧ m.number = n ∧
      (∀ z x, m.composition.get z = some x ↔ LastWins (es.map (fun e => (e.1, e.2.2))) z x) ∧
      m.composition.keys.Nodup ∧ m.numNuclides = (es.map (·.1)).dedup.length ∧
      (∀ k v, m.keywords.get k = some v ↔ ∃ a w b, cardWords f first body = a ++ w :: b ∧ KwEntry w k v ∧
        ∀ w' ∈ b, '=' ∈ w' → w'.takeWhile (· ≠ '=') ≠ k) ∧
      m.thermal = getCardLines lines (p!"mt" ++ natStr n) ∧ m.mx = getCardLines lines (p!"mx" ++ natStr n) := by
  rw [words_eq hf] at hw hk ⊢
  have hpk : ¬ ∃ w ∈ cardWords splitWs first body, '=' ∈ w ∧ w.takeWhile (· ≠ '=') ∉ keywordNames := by
    rintro ⟨w, h1, h2, h3⟩; exact h3 (hk w h1 h2)
  have hp := pairs_ok hes [] []
  rw [List.append_nil] at hp
  refine ⟨_, by rw [readMaterial_eq flt n lines first body h, if_neg hpk, hw, hp]; rfl, rfl, ?_, ?_, ?_, ?_, rfl, rfl⟩
  · intro z x; exact get_foldl_lastWins _ z x
  · exact Dict.nodup_keys_foldl_set _ _ (by simp [Dict.keys])
  · show List.length _ = _
    rw [length_foldl_set, List.map_map]; rfl
  · intro k v
    show Dict.get (List.foldl _ _ _) k = _ ↔ _
    rw [get_foldl_lastWins]
    unfold LastWins
    constructor
    · rintro ⟨a, b, hab, hb⟩
      obtain ⟨a', r, h1, h2, h3⟩ := List.map_eq_append_iff.1 hab
      obtain ⟨w, r', rfl, h4, h5⟩ := List.map_eq_cons_iff.1 h3
      obtain ⟨l1, l2, h6, h7, h8⟩ := List.filter_eq_append_iff.1 h1
      obtain ⟨l3, l4, h9, h10, h11, h12⟩ := List.filter_eq_cons_iff.1 h8
      have hw' : '=' ∈ w := hasSub_singleton.1 h11
      refine ⟨l1 ++ l3, w, l4, by rw [h6, h9]; simp, (kwPair_iff hw').1 h4, ?_⟩
      intro w' hw1 hw2
      rw [← kwPair_fst]
      apply hb
      rw [← h5, ← h12]
      exact List.mem_map_of_mem (List.mem_filter.2 ⟨hw1, hasSub_singleton.2 hw2⟩)
    · rintro ⟨a, w, b, hab, hkw, hb⟩
      have hw' : '=' ∈ w := by
        cases v with
        | one v => rw [hkw.1]; simp
        | many v => rw [hkw.1]; simp
      refine ⟨(a.filter (fun w => hasSub p!"=" w)).map kwPair, (b.filter (fun w => hasSub p!"=" w)).map kwPair, ?_, ?_⟩
      · rw [hab, List.filter_append, List.filter_cons_of_pos (hasSub_singleton.2 hw'), List.map_append, List.map_cons,
          (kwPair_iff hw').2 hkw]
      · intro e he
        rw [List.mem_map] at he
        obtain ⟨w', hw1, rfl⟩ := he
        rw [List.mem_filter, hasSub_singleton] at hw1
        rw [kwPair_fst]
        exact hb w' hw1.1 hw1.2

/-- C83: the word left out at the start of the card is its name, so all entries are read. -/
theorem C83_words (n : Nat) (x : Char) (rest : Str) (body : List Str) (f : Str → List Str) (hf : ∀ s, Spec.IsWords s (f s))
    (hx : x = 'm' ∨ x = 'M') (hr : rest = [] ∨ rest.head? = some ' ') :
    cardWords f (x :: (natStr n ++ rest)) body = f (lower (code rest)) ++
      (body.filter (fun l => decide (Cont l))).flatMap (fun l => f (lower (code l))) := by
  rw [words_eq hf]
  have hcode : lower (code (x :: (natStr n ++ rest))) = ('m' :: natStr n) ++ lower (code rest) := by
    unfold code
    rw [List.takeWhile_cons_of_pos (by rcases hx with rfl | rfl <;> decide), List.takeWhile_append_of_pos]
    · have hl : x.toLower = 'm' := by rcases hx with rfl | rfl <;> rfl
      show x.toLower :: List.map _ _ = _
      rw [hl, List.map_append]
      have := natStr_lower n
      unfold lower at this ⊢
      rw [this]; rfl
    · intro c hc
      simp only [ne_eq, decide_not, Bool.not_eq_eq_eq_not, Bool.not_true, decide_eq_false_iff_not]
      rintro rfl; exact absurd (natStr_isDigit hc) (by decide)
  unfold cardWords cardText
  rw [List.flatMap_cons, hcode, splitWs_word_append (by simp)]
  · simp [List.flatMap_map]
  · simp only [List.mem_cons, forall_eq_or_imp]
    exact ⟨by decide, fun c hc => isDigit_not_space (natStr_isDigit hc)⟩
  · rcases hr with rfl | hr
    · simp [code, lower]
    · cases rest with
      | nil => simp at hr
      | cons c cs =>
        simp only [List.head?_cons, Option.some.injEq] at hr
        subst hr
        intro d hd
        simp [code, lower] at hd
        rw [← hd]; decide

/-- C83: errors. An unknown keyword gives ValueError; with known keywords, an entry left over after complete pairs gives
    IndexError, a fraction that is not a number gives ValueError. -/
theorem C83_errors (flt : Str → Option F) (n : Nat) (lines : List Str) (first : Str) (body : List Str)
    (f : Str → List Str) (hf : ∀ s, Spec.IsWords s (f s)) (h : Card (MatHead n) lines first body) :
    ((∃ w ∈ cardWords f first body, '=' ∈ w ∧ w.takeWhile (· ≠ '=') ∉ keywordNames) →
      readMaterialLines flt n lines = .error .ValueError) ∧
    ((∀ w ∈ cardWords f first body, '=' ∈ w → w.takeWhile (· ≠ '=') ∈ keywordNames) →
      ∀ (es : List (Str × Str × F)), (∀ e ∈ es, flt e.2.1 = some e.2.2) →
      (∀ z, (cardWords f first body).filter (fun w => decide ('=' ∉ w)) = es.flatMap (fun e => [e.1, e.2.1]) ++ [z] →
        readMaterialLines flt n lines = .error .IndexError) ∧
      (∀ z v more, (cardWords f first body).filter (fun w => decide ('=' ∉ w)) =
          es.flatMap (fun e => [e.1, e.2.1]) ++ z :: v :: more → flt v = none →
        readMaterialLines flt n lines = .error .ValueError)) := by
  rw [words_eq hf]
  constructor
  · intro hk
    rw [readMaterial_eq flt n lines first body h, if_pos hk]
  · intro hk es hes
    have hpk : ¬ ∃ w ∈ cardWords splitWs first body, '=' ∈ w ∧ w.takeWhile (· ≠ '=') ∉ keywordNames := by
      rintro ⟨w, h1, h2, h3⟩; exact h3 (hk w h1 h2)
    constructor
    · intro z hz
      rw [readMaterial_eq flt n lines first body h, if_neg hpk, hz, pairs_ok hes]; rfl
    · intro z v more hz hv
      rw [readMaterial_eq flt n lines first body h, if_neg hpk, hz, pairs_ok hes]
      simp only [pairs, hv, orErr]; rfl

private def exFltI (s : Str) : Option Int := pyInt s

example : readMaterialLines exFltI 1 [p!"m12 1 1", p!"M1 1001 2 $ water", p!"c note", p!"     8016 1 nlib=70c", p!"mt1 lwtr",
    p!"     1 1"] = .ok ⟨1, [(p!"1001", 2), (p!"8016", 1)], [(p!"nlib", .one p!"70c")], 2, [p!"mt1 lwtr", p!"     1 1"], []⟩ := by
  decide +kernel
example : readMaterialLines exFltI 1 [p!"m1 1001 2 8016"] = .error .IndexError := by decide +kernel
example : readMaterialLines exFltI 1 [p!"m1 1001 x"] = .error .ValueError := by decide +kernel
example : readMaterialLines exFltI 1 [p!"m1 1001 1 foo=3"] = .error .ValueError := by decide +kernel

/-- A keyword with blanks around '=' is an error although MCNP accepts it. -/
theorem C83_blank_around_equals (flt : Str → Option F) : readMaterialLines flt 1 [p!"m1 1001 1 nlib = 70c"] = .error .ValueError := by
  have h : Card (MatHead 1) [p!"m1 1001 1 nlib = 70c"] p!"m1 1001 1 nlib = 70c" [] := by
    refine ⟨[], [], rfl, by simp, ⟨'m', p!" 1001 1 nlib = 70c", by decide, .inl rfl, .inr rfl⟩, by simp, by simp⟩
  apply (C83_errors flt 1 _ _ _ splitWs isWords_splitWs h).1
  exact ⟨p!"=", by decide, by decide, by decide⟩

/-! ### C84 -/

/-- C84: what is returned for a number without a card. -/
theorem C84_undefined_material (flt : Str → Option F) (n : Nat) (lines : List Str) (h : ∀ l ∈ lines, ¬ MatHead n l) :
    readMaterialLines flt n lines = .ok ⟨n, [], [], 0, getCardLines lines (p!"mt" ++ natStr n),
      getCardLines lines (p!"mx" ++ natStr n)⟩ := by
  unfold readMaterialLines
  rw [scan_absent (fun _ => matStart_iff) h]
  rfl

/-- C84 is violated: an undefined material is read without error, and the result is the same as for a card without
    entries. -/
theorem C84_undefined_violated (flt : Str → Option F) : ∃ undefined defined : List Str,
    (∀ l ∈ undefined, ¬ MatHead 5 l) ∧ (∃ l ∈ defined, MatHead 5 l) ∧
    (∃ m, readMaterialLines flt (5 : Nat) undefined = .ok m) ∧
    readMaterialLines flt (5 : Nat) undefined = readMaterialLines flt (5 : Nat) defined := by
  refine ⟨[], [p!"m5"], by simp, ⟨p!"m5", by simp, 'm', [], by decide, .inl rfl, .inl rfl⟩,
    ⟨_, C84_undefined_material flt 5 [] (by simp)⟩, ?_⟩
  rw [C84_undefined_material flt 5 [] (by simp)]
  rfl

/-- C84 (part that holds): a material read from a card with at least one pair can be told from an undefined one by its
    composition. -/
theorem C84_defined_nonempty_partial (flt : Str → Option F) (n : Nat) (lines other : List Str) (first : Str) (body : List Str)
    (f : Str → List Str) (hf : ∀ s, Spec.IsWords s (f s)) (h : Card (MatHead n) lines first body)
    (hp : ∃ w ∈ cardWords f first body, '=' ∉ w) (hu : ∀ l ∈ other, ¬ MatHead n l) (m m' : Material F)
    (hm : readMaterialLines flt n lines = .ok m) (hm' : readMaterialLines flt n other = .ok m') :
    m'.composition = [] ∧ m.composition ≠ [] := by
  rw [C84_undefined_material flt n other hu] at hm'
  simp only [Except.ok.injEq] at hm'
  subst hm'
  refine ⟨rfl, ?_⟩
  rw [words_eq hf] at hp
  rw [readMaterial_eq flt n lines first body h] at hm
  split at hm
  · simp at hm
  · obtain ⟨w, hw, hne⟩ := hp
    have hmem : w ∈ (cardWords splitWs first body).filter (fun w => decide ('=' ∉ w)) :=
      List.mem_filter.2 ⟨hw, by simpa using hne⟩
    cases hl : (cardWords splitWs first body).filter (fun w => decide ('=' ∉ w)) with
    | nil => rw [hl] at hmem; simp at hmem
    | cons z zs =>
      rw [hl] at hm
      cases zs with
      | nil => simp [pairs, Except.map] at hm
      | cons v more =>
        have key : ∀ (more : List Str) (d d' : Dict Str F), d ≠ [] → pairs flt more d = .ok d' → d' ≠ [] := by
          intro more
          induction more using List.twoStepInduction with
          | nil => intro d d' hd h; simp [pairs] at h; rw [← h]; exact hd
          | singleton x => intro d d' hd h; simp [pairs] at h
          | cons_cons a b c ih _ =>
            intro d d' hd h
            simp only [pairs, ex_bind_ok, orErr_ok_iff] at h
            obtain ⟨x, _, h⟩ := h
            refine ih _ _ ?_ h
            intro h0
            have : a ∈ (d.set a x).keys := Dict.mem_keys_set.2 (.inl rfl)
            rw [h0] at this
            simp [Dict.keys] at this
        simp only [pairs] at hm
        cases hv : flt v with
        | none => rw [hv] at hm; simp [orErr, bind, Except.bind, Except.map] at hm
        | some x =>
          rw [hv] at hm
          simp only [orErr, ex_ok_bind] at hm
          cases hq : pairs flt more (Dict.set [] z x) with
          | error e => rw [hq] at hm; simp [Except.map] at hm
          | ok d' =>
            rw [hq] at hm
            simp only [Except.map, Except.ok.injEq] at hm
            subst hm
            exact key more _ _ (by simp [Dict.set]) hq

example : Card (MatHead 1) [p!"m1 1001 2"] p!"m1 1001 2" [] ∧ ∃ w ∈ cardWords splitWs p!"m1 1001 2" [], '=' ∉ w :=
  ⟨⟨[], [], rfl, by simp, ⟨'m', p!" 1001 2", by decide, .inl rfl, .inr rfl⟩, by simp, by simp⟩, p!"1001", by decide, by decide⟩

end Props
