/-
C264: MCNP inputs made readable for vised. C265: no mphys card is left.
-/
import Verif.Props.NoComments
import Verif.Props.McnpInput3
import Verif.Proofs.PyM

set_option linter.unusedSimpArgs false

namespace Props
open Py NeutUtilities McnpInput Spec.Mcnp
variable {F : Type}

/-- The first line that is neither empty nor a comment is no continuation line. -/
def NotContinued (ls : List Str) : Prop :=
  ∀ pre l rest, ls = pre ++ l :: rest → (∀ x ∈ pre, x = [] ∨ Comment x) → ¬ Cont l

/-- The lines of a data block, and the same lines with the mphys cards turned into comments. An mphys card starts in column 1 and has no
    continuation line; the word is nowhere else. -/
inductive MphysOff : List Str → List Str → Prop
  | nil : MphysOff [] []
  | same {l : Str} {a b : List Str} : ¬ p!"mphys" <:+: l → MphysOff a b → MphysOff (l :: a) (l :: b)
  | card {r : Str} {a b : List Str} : ¬ p!"mphys" <:+: r → NotContinued a → MphysOff a b →
      MphysOff ((p!"mphys" ++ r) :: a) ((p!"c mphys" ++ r) :: b)

private theorem cont_lower (l : Str) : Cont (lower l) → Cont l := fun h => (blanks_of_lower 5).1 h

private theorem scan_notContinued {start : Str → Bool} (he : start [] = false) (ls : List Str) :
    NotContinued ls → scan start true ls = [] := by
  induction ls with
  | nil => intro _; rfl
  | cons l ls ih =>
    intro h
    have tail : (l = [] ∨ Comment l) → NotContinued ls := by
      intro hl pre m rest hm hp
      refine h (l :: pre) m rest (by rw [hm]; rfl) ?_
      intro x hx
      rcases List.mem_cons.1 hx with rfl | hx
      · exact hl
      · exact hp x hx
    by_cases hl : l = []
    · subst hl
      simp only [scan, lower, List.map_nil, he]
      exact ih (tail (.inl rfl))
    · have hc : isContinueLine (lower l) = false := by
        rw [Bool.eq_false_iff]
        intro hc
        exact h [] l ls rfl (by simp) (cont_lower l (isContinueLine_iff.1 hc))
      have hn : lower l ≠ [] := by simpa [lower] using hl
      by_cases hm : Comment l
      · simp only [scan, hc, comment_iff.2 hm, Bool.false_eq_true, if_false, if_true]
        exact ih (tail (.inr hm))
      · have hm' : startsWith (lower l) p!"c " = false := by
          rw [Bool.eq_false_iff]; exact fun h => hm (comment_iff.1 h)
        simp only [scan, hc, hm', hn, Bool.false_eq_true, if_false, if_true, ne_eq, not_false_eq_true]

private theorem scan_off {start : Str → Bool} (he : start [] = false) (hm : ∀ r, start (p!"mphys" ++ r) = false)
    (hc : ∀ r, start (p!"c mphys" ++ r) = false) {a b : List Str} (h : MphysOff a b) : ∀ s, scan start s a = scan start s b := by
  have e1 : ∀ r, lower (p!"mphys" ++ r) = p!"mphys" ++ lower r := fun r => by simp [lower]
  have e2 : ∀ r, lower (p!"c mphys" ++ r) = p!"c mphys" ++ lower r := fun r => by simp [lower]
  have c1 : ∀ r, isContinueLine (p!"mphys" ++ r) = false := fun r => rfl
  have c2 : ∀ r, isContinueLine (p!"c mphys" ++ r) = false := fun r => rfl
  have c3 : ∀ r, startsWith (p!"c mphys" ++ r) p!"c " = true := fun r => by rw [startsWith_iff]; exact ⟨p!"mphys" ++ r, rfl⟩
  have c4 : ∀ r, startsWith (p!"mphys" ++ r) p!"c " = false := fun r => rfl
  induction h with
  | nil => intro s; rfl
  | same _ _ ih => intro s; cases s <;> simp only [scan, ih]
  | @card r a b _ hn _ ih =>
    intro s
    cases s with
    | false => simp only [scan, e1, e2, hm, hc, Bool.false_eq_true, if_false, ih]
    | true =>
      have hl : p!"mphys" ++ lower r ≠ [] := by simp
      simp only [scan, e1, e2, c1, c2, c3, c4, hl, Bool.false_eq_true, if_false, if_true, ne_eq, not_false_eq_true]
      rw [← ih, scan_notContinued he a hn]

private theorem card_off (x y : Char) (cs : Str) (hx : x.toLower = x) (hy : y.toLower = y) (hc : x ≠ 'c') (hm : y ≠ 'p') {a b : List Str} (h : MphysOff a b) :
    getCardLines a (x :: y :: cs) = getCardLines b (x :: y :: cs) := by
  refine scan_off ?_ ?_ ?_ h false
  · simp [cardStart, startsWith, lower]
  · intro r
    simp [cardStart, startsWith, lower, hx, hy, hm]
  · intro r
    simp [cardStart, startsWith, lower, hx, hy, hc]

private theorem present_off (x : Char) (cs : Str) (hx : x.toLower = x) (hc : x ≠ 'c') (hm : x ≠ 'm') {a b : List Str} (h : MphysOff a b) :
    isCardPresent a (x :: cs) = isCardPresent b (x :: cs) := by
  unfold isCardPresent
  induction h with
  | nil => rfl
  | same _ _ ih => rw [List.any_cons, List.any_cons, ih]
  | card _ _ _ ih =>
    rw [List.any_cons, List.any_cons, ih]
    congr 1
    have : ∀ (y : Char) (r : Str), x ≠ y → (x :: cs.map Char.toLower).isPrefixOf (y :: r) = false := by
      intro y r hy; simp [List.isPrefixOf, hy]
    simp [startsWith, lower, hx, this _ _ hc, this _ _ hm]

private theorem mat_off (n : Int) : matStart n [] = false ∧ (∀ r, matStart n (p!"mphys" ++ r) = false) ∧ ∀ r, matStart n (p!"c mphys" ++ r) = false :=
  ⟨rfl, fun _ => rfl, fun _ => rfl⟩

private theorem material_off (flt : Str → Option F) (n : Int) {a b : List Str} (h : MphysOff a b) :
    readMaterialLines flt n a = readMaterialLines flt n b := by
  unfold readMaterialLines
  rw [scan_off (mat_off n).1 (mat_off n).2.1 (mat_off n).2.2 h false]
  have h1 := card_off 'm' 't' (intStr n) rfl rfl (by decide) (by decide) h
  have h2 := card_off 'm' 'x' (intStr n) rfl rfl (by decide) (by decide) h
  simp only [List.cons_append, List.nil_append] at h1 h2 ⊢
  rw [h1, h2]

private theorem tally_off (n : Int) {a b : List Str} (h : MphysOff a b) : readTallyLines n a = readTallyLines n b := by
  unfold readTallyLines
  rw [scan_off (start := talStart n) rfl (fun r => rfl) (fun r => rfl) h false]
  have h1 := present_off 'e' (intStr n ++ p!" ") rfl (by decide) (by decide) h
  have h2 := present_off 't' (intStr n ++ p!" ") rfl (by decide) (by decide) h
  have h3 := present_off 'f' ('m' :: (intStr n ++ p!" ")) rfl (by decide) (by decide) h
  have h4 := present_off 's' ('d' :: (intStr n ++ p!" ")) rfl (by decide) (by decide) h
  have h5 := present_off 'f' ('c' :: (intStr n ++ p!" ")) rfl (by decide) (by decide) h
  simp only [List.cons_append, List.nil_append] at h1 h2 h3 h4 h5 ⊢
  rw [h1, h2, h3, h4, h5]

private theorem filter_off (x : Char) {a b : List Str} (h : MphysOff a b) : a.filter (letterDigit x) = b.filter (letterDigit x) := by
  have d1 : isDigit 'p' = false := by decide
  have d2 : isDigit ' ' = false := by decide
  induction h with
  | nil => rfl
  | same _ _ ih => rw [List.filter_cons, List.filter_cons, ih]
  | @card r _ _ _ _ _ ih =>
    rw [List.filter_cons_of_neg (by simp [letterDigit, d1]), List.filter_cons_of_neg (by simp [letterDigit, d2]), ih]

private theorem materials_off (flt : Str → Option F) {a b : List Str} (h : MphysOff a b) (ns : List Int) :
    ∀ d, readMaterials flt a ns d = readMaterials flt b ns d := by
  induction ns with
  | nil => intro d; rfl
  | cons n ns ih => intro d; simp only [readMaterials, material_off flt n h, ih]

private theorem tallies_off {a b : List Str} (h : MphysOff a b) (ns : List Int) : readTallies a ns = readTallies b ns := by
  unfold readTallies
  cases ns with
  | nil => rfl
  | cons n ns => simp only [tally_off _ h]

/-- C264 (part that holds): an input whose mphys cards are turned into comments is read with the same cells, surfaces, materials, tallies, mode
    and flags, or refused with the same error. Missing: an mphys card with continuation lines (`C264_continued_violated`). -/
theorem C264_lines_partial (flt : Str → Option F) (path path' : Str) {a b c c' : List Str} {x y : Str}
    (ha : ∀ l ∈ a, ¬ Spec.Blank l) (hx : Spec.Blank x) (hb : ∀ l ∈ b, ¬ Spec.Blank l) (hy : Spec.Blank y) (h : MphysOff (y :: c) (y :: c')) :
    BothOr SameCards (readLines flt path (a ++ x :: (b ++ y :: c))) (readLines flt path' (a ++ x :: (b ++ y :: c'))) := by
  have s1 := (C78_blocks (a ++ x :: (b ++ y :: c)) a (x :: b) (y :: c)).2 ⟨by simp, ha, ⟨x, b, rfl, hx, hb⟩, y, c, rfl, hy⟩
  have s2 := (C78_blocks (a ++ x :: (b ++ y :: c')) a (x :: b) (y :: c')).2 ⟨by simp, ha, ⟨x, b, rfl, hx, hb⟩, y, c', rfl, hy⟩
  have t1 : getTallyNumbers (y :: c) = getTallyNumbers (y :: c') := by unfold getTallyNumbers; rw [filter_off _ h]
  have t2 : getMaterialNumbers (y :: c) = getMaterialNumbers (y :: c') := by unfold getMaterialNumbers; rw [filter_off _ h]
  have t3 : readModeCard (y :: c) = readModeCard (y :: c') := by
    unfold readModeCard; rw [card_off 'm' 'o' p!"de" rfl rfl (by decide) (by decide) h]
  unfold readLines
  rw [s1, s2]
  simp only [ex_ok_bind]
  rw [t1, t2]
  refine both_same _ (fun c => both_same _ (fun sf => both_same _ (fun tn => both_same _ (fun mn => ?_))))
  rw [materials_off flt h]
  refine both_same _ (fun ms => .inl ⟨_, _, rfl, rfl, rfl, rfl, t3, rfl, rfl, rfl, tallies_off h tn, ?_⟩)
  exact ⟨present_off 'v' p!"oid" rfl (by decide) (by decide) h, present_off 'k' p!"code" rfl (by decide) (by decide) h,
    present_off 's' p!"def" rfl (by decide) (by decide) h, present_off 'p' p!"trac" rfl (by decide) (by decide) h⟩

/-! ### The file -/

/-- The text of a file with these lines. -/
private def text (ls : List Str) : Str := ls.flatMap (fun l => l ++ ['\n'])

private theorem replaceAux_line {old new : Str} (hne : old ≠ []) (hn : '\n' ∉ old) (l rest : Str) :
    replaceAux old new 0 (l ++ '\n' :: rest) = replaceAux old new 0 l ++ '\n' :: replaceAux old new 0 rest := by
  induction hl : l.length using Nat.strong_induction_on generalizing l with
  | _ n ih =>
    subst hl
    cases l with
    | nil =>
      rw [List.nil_append, replaceAux_miss]
      · rfl
      · rintro ⟨t, ht⟩
        cases old with
        | nil => exact hne rfl
        | cons o os =>
          simp only [List.cons_append, List.cons.injEq] at ht
          exact hn (by simp [ht.1])
    | cons c cs =>
      by_cases hp : old <+: c :: cs
      · obtain ⟨t, ht⟩ := hp
        rw [← ht, List.append_assoc, replaceAux_hit hne, replaceAux_hit hne, List.append_assoc]
        congr 1
        refine ih t.length ?_ t rfl
        have : 0 < old.length := List.length_pos_of_ne_nil hne
        rw [← ht, List.length_append]; omega
      · rw [replaceAux_miss hp, List.cons_append, replaceAux_miss, ih cs.length (by simp) cs rfl]
        · rfl
        · intro hpre
          apply hp
          obtain ⟨t, ht⟩ := hpre
          rcases List.append_eq_append_iff.1 (show old ++ t = (c :: cs) ++ '\n' :: rest from ht) with ⟨u, hu, -⟩ | ⟨u, hu, hv⟩
          · exact ⟨u, hu.symm⟩
          · cases u with
            | nil => exact ⟨[], by simpa using hu⟩
            | cons d u =>
              exfalso
              simp only [List.cons_append, List.cons.injEq] at hv
              exact hn (by rw [hu]; simp [← hv.1])

private theorem text_off {a b : List Str} (h : MphysOff a b) : replaceAux p!"mphys" p!"c mphys" 0 (text a) = text b := by
  induction h with
  | nil => rfl
  | @same l a b hl _ ih =>
    unfold text at ih ⊢
    rw [List.flatMap_cons, List.append_assoc, List.flatMap_cons, List.append_assoc, List.singleton_append, List.singleton_append,
      replaceAux_line (by simp) (by decide), replaceAux_absent hl, ih]
  | @card r a b hr _ _ ih =>
    have e : ∀ (l : Str) (a : List Str), text (l :: a) = l ++ '\n' :: text a := fun l a => by simp [text]
    rw [e, e, replaceAux_line (by simp) (by decide), replaceAux_hit (by simp), replaceAux_absent hr, ih]

private theorem off_append {p : List Str} (hp : ∀ l ∈ p, ¬ p!"mphys" <:+: l) {a b : List Str} (h : MphysOff a b) : MphysOff (p ++ a) (p ++ b) := by
  induction p with
  | nil => exact h
  | cons l p ih => exact .same (hp l (by simp)) (ih (fun m hm => hp m (by simp [hm])))

private theorem off_breaks {a b : List Str} (h : MphysOff a b) (ha : ∀ l ∈ a, ∀ c ∈ l, isLineBreak c = false) : ∀ l ∈ b, ∀ c ∈ l, isLineBreak c = false := by
  induction h with
  | nil => exact ha
  | same _ _ ih =>
    intro m hm
    rcases List.mem_cons.1 hm with rfl | hm
    · exact ha _ (by simp)
    · exact ih (fun l hl => ha l (by simp [hl])) m hm
  | @card r a b _ _ _ ih =>
    intro m hm
    rcases List.mem_cons.1 hm with rfl | hm
    · have := ha (p!"mphys" ++ r) (by simp)
      intro c hc
      simp only [List.cons_append, List.nil_append, List.mem_cons] at hc this
      rcases hc with rfl | rfl | hc
      · decide
      · decide
      · exact this c hc
    · exact ih (fun l hl => ha l (by simp [hl])) m hm

/-- C264 (part that holds): reading a file after `vised_compatible` gives what reading it before gives. -/
theorem C264_file_partial (flt : Str → Option F) (fs : FS) (fname : Str) {a b c c' : List Str} {x y : Str}
    (ha : ∀ l ∈ a, ¬ Spec.Blank l ∧ ¬ p!"mphys" <:+: l) (hx : Spec.Blank x) (hb : ∀ l ∈ b, ¬ Spec.Blank l ∧ ¬ p!"mphys" <:+: l)
    (hy : Spec.Blank y) (h : MphysOff c c') (hl : ∀ l ∈ a ++ x :: (b ++ y :: c), ∀ ch ∈ l, isLineBreak ch = false)
    (hf : fs.node fname = some (.file ((a ++ x :: (b ++ y :: c)).flatMap (fun l => l ++ ['\n'])))) (hw : fs.canWrite fname = true) :
    ∃ fs', visedCompatible fname fs = (.ok (), fs') ∧
      fs'.node fname = some (.file ((a ++ x :: (b ++ y :: c')).flatMap (fun l => l ++ ['\n']))) ∧
      BothOr SameCards (readMcnpInput flt fname fs).1 (readMcnpInput flt fname fs').1 := by
  have nb : ∀ l : Str, Spec.Blank l → ¬ p!"mphys" <:+: l := by
    rintro l hl ⟨s, t, rfl⟩
    have := hl 'm' (by simp)
    revert this; decide
  have off : MphysOff (a ++ x :: (b ++ y :: c)) (a ++ x :: (b ++ y :: c')) :=
    off_append (fun l hl => (ha l hl).2) (.same (nb x hx) (off_append (fun l hl => (hb l hl).2) (.same (nb y hy) h)))
  have hr : '\r' ∉ text (a ++ x :: (b ++ y :: c)) := by
    intro hm
    obtain ⟨l, hll, hm⟩ := List.mem_flatMap.1 hm
    rcases List.mem_append.1 hm with hm | hm
    · exact absurd (hl l hll _ hm) (by decide)
    · simp at hm
  have e : visedCompatible fname fs = (.ok (), fs.put fname (.file (text (a ++ x :: (b ++ y :: c'))))) := by
    unfold visedCompatible textReplace
    rw [PyM.bind_ok (a := text (a ++ x :: (b ++ y :: c))) (fs' := fs) (by
      have := univNL_eq_self hr
      unfold text at this ⊢
      simp only [readText, hf, this]), replace_of_ne_nil (by simp), text_off off]
    simp [writeText, hw]
  refine ⟨_, e, put_self, ?_⟩
  have r1 : (readMcnpInput flt fname fs).1 = readLines flt fname (a ++ x :: (b ++ y :: c)) := by
    unfold readMcnpInput
    rw [PyM.bind_ok (getLines_file hf), univNL_splitlines_flatMap hl]
    rfl
  have r2 : (readMcnpInput flt fname (fs.put fname (.file (text (a ++ x :: (b ++ y :: c')))))).1 = readLines flt fname (a ++ x :: (b ++ y :: c')) := by
    unfold readMcnpInput
    rw [PyM.bind_ok (getLines_file put_self)]
    unfold text
    rw [univNL_splitlines_flatMap (off_breaks off hl)]
    rfl
  rw [r1, r2]
  exact C264_lines_partial flt fname fname (fun l hl => (ha l hl).1) hx (fun l hl => (hb l hl).1) hy (.same (nb y hy) h)

/-- C264 is violated: when the mphys card is continued, its continuation line becomes part of the material in front of it. -/
theorem C264_continued_violated : ∃ (flt : Str → Option Nat) (fs fs' : FS) (f : Str) (i j : Input Nat) (m m' : Material Nat),
    visedCompatible f fs = (.ok (), fs') ∧ (readMcnpInput flt f fs).1 = .ok i ∧ (readMcnpInput flt f fs').1 = .ok j ∧
    i.materials.get 1 = some m ∧ j.materials.get 1 = some m' ∧ m.composition = [(p!"1001", 2)] ∧ m'.composition = [(p!"1001", 2), (p!"7", 8)] :=
  ⟨fun s => (pyInt s).map Int.toNat, exFS p!"1 0 -1\n\n1 so 5\n\nm1 1001 2\nmphys on\n     7 8\n", _, p!"f",
    ⟨p!"f", [p!"1 0 -1"], [[], p!"1 so 5"], [[], p!"m1 1001 2", p!"mphys on", p!"     7 8"], [(1, ⟨1, 0, none, [], [p!"-1"], [1], []⟩)],
      [(1, ⟨1, p!"so", [p!"5"], none⟩)], [], none, [], [1], [(1, ⟨1, [(p!"1001", 2)], [], 1, [], []⟩)], none, false, false,
      false, false⟩,
    ⟨p!"f", [p!"1 0 -1"], [[], p!"1 so 5"], [[], p!"m1 1001 2", p!"c mphys on", p!"     7 8"], [(1, ⟨1, 0, none, [], [p!"-1"], [1], []⟩)],
      [(1, ⟨1, p!"so", [p!"5"], none⟩)], [(5, p!"c mphys on")], none, [], [1], [(1, ⟨1, [(p!"1001", 2), (p!"7", 8)], [], 2, [], []⟩)], none, false,
      false, false, false⟩, _, _, rfl, by with_unfolding_all rfl, by with_unfolding_all rfl, rfl, rfl, rfl, rfl⟩

example : MphysOff [p!"m1 1001 2", p!"mphys on", [], p!"mode n"] [p!"m1 1001 2", p!"c mphys on", [], p!"mode n"] := by
  refine .same (by decide) (.card (r := p!" on") (by decide) ?_ (.same (by decide) (.same (by decide) .nil)))
  intro pre l rest h hp
  rcases pre with _ | ⟨p, _ | ⟨q, pre⟩⟩
  · simp at h; obtain ⟨rfl, -⟩ := h; decide
  · simp at h; obtain ⟨-, rfl, -⟩ := h; decide
  · simp at h

/-! ### No mphys card is left -/

private theorem kept_prefix {q : Str} (hq : 'c' ∉ q) : ∀ l, q <+: replaceAux p!"mphys" p!"c mphys" 0 l → q <+: l := by
  induction q with
  | nil => intro l _; exact List.nil_prefix
  | cons x q ih =>
    intro l h
    cases l with
    | nil => exact h
    | cons d cs =>
      by_cases hp : p!"mphys" <+: d :: cs
      · obtain ⟨t, ht⟩ := hp
        rw [← ht, replaceAux_hit (by simp)] at h
        simp only [List.cons_append, List.cons_prefix_cons] at h
        exact absurd (by simp [h.1]) hq
      · rw [replaceAux_miss hp, List.cons_prefix_cons] at h
        rw [List.cons_prefix_cons]
        exact ⟨h.1, ih (fun hc => hq (by simp [hc])) cs h.2⟩

private theorem behind_c (l : Str) : ∀ a b, replaceAux p!"mphys" p!"c mphys" 0 l = a ++ (p!"mphys" ++ b) → p!"c " <:+ a := by
  induction hn : l.length using Nat.strong_induction_on generalizing l with
  | _ n ih =>
    subst hn
    intro a b h
    cases l with
    | nil => simp [replaceAux] at h
    | cons d cs =>
      by_cases hp : p!"mphys" <+: d :: cs
      · obtain ⟨t, ht⟩ := hp
        have hlen : t.length < (d :: cs).length := by rw [← ht]; simp; omega
        rw [← ht, replaceAux_hit (by simp)] at h
        have go := ih t.length hlen t rfl
        rcases a with _ | ⟨x1, _ | ⟨x2, _ | ⟨x3, _ | ⟨x4, _ | ⟨x5, _ | ⟨x6, _ | ⟨x7, a⟩⟩⟩⟩⟩⟩⟩
        all_goals simp only [List.nil_append, List.cons_append, List.cons.injEq] at h
        · exact absurd h.1 (by decide)
        · exact absurd h.2.1 (by decide)
        · rw [← h.1, ← h.2.1]
        · exact absurd h.2.2.2.1 (by decide)
        · exact absurd h.2.2.2.2.1 (by decide)
        · exact absurd h.2.2.2.2.2.1 (by decide)
        · exact absurd h.2.2.2.2.2.2.1 (by decide)
        · have := go a b h.2.2.2.2.2.2.2
          exact this.trans ⟨[x1, x2, x3, x4, x5, x6, x7], rfl⟩
      · have h0 := h
        rw [replaceAux_miss hp] at h
        cases a with
        | nil => exact absurd (kept_prefix (q := p!"mphys") (by decide) _ (by rw [h0]; exact ⟨b, rfl⟩)) hp
        | cons y a =>
          simp only [List.cons_append, List.cons.injEq] at h
          exact (ih cs.length (by simp) cs rfl a b (by simpa using h.2)).trans (List.suffix_cons _ _)

/-- C265 (part that holds): after `vised_compatible` every mphys in the file stands behind the letter c and a blank, so none is first in its
    line. Missing: other letter cases (`C265_violated`). -/
theorem C265_partial (fs fs' : FS) (fname : Str) (h : visedCompatible fname fs = (.ok (), fs')) :
    ∃ out, fs'.node fname = some (.file out) ∧ ∀ a b, out = a ++ (p!"mphys" ++ b) → p!"c " <:+ a := by
  unfold visedCompatible textReplace at h
  obtain ⟨t, fs1, h1, h2⟩ := pym_bind_ok.1 h
  rw [replace_of_ne_nil (by simp)] at h2
  have : fs' = fs1.put fname (.file (replaceAux p!"mphys" p!"c mphys" 0 t)) := by
    unfold writeText at h2
    split at h2
    · exact ((Prod.mk.inj h2).2).symm
    · exact absurd (Prod.mk.inj h2).1 (by simp)
  subst this
  exact ⟨_, put_self, behind_c t⟩

/-- C265 is violated: a card in capital letters stays, at the start of its line. -/
theorem C265_violated (fs : FS) (fname : Str) (content : Str) (h : fs.node fname = some (.file content)) (hw : fs.canWrite fname = true)
    (hc : content = p!"m1 1001 2\nMPHYS on\n") : ∃ fs', visedCompatible fname fs = (.ok (), fs') ∧ fs'.node fname = some (.file content) := by
  subst hc
  unfold visedCompatible textReplace
  rw [PyM.bind_ok (a := p!"m1 1001 2\nMPHYS on\n") (fs' := fs) (by simp [readText, h]; decide)]
  refine ⟨_, by simp only [writeText, hw, if_true]; rfl, ?_⟩
  rw [put_self]
  decide

example : (visedCompatible p!"f" (exFS p!"mphys on\n mphys off\n")).2.node p!"f" = some (.file p!"c mphys on\n c mphys off\n") := by decide

end Props
