/- Properties C88 and C89: surface blocks of MCNP input files (mcnp_input_reader.py). -/
import Verif.Proofs.McnpInput

set_option linter.unusedSectionVars false
set_option linter.unusedSimpArgs false

namespace Props
open Py NeutUtilities McnpInput Spec.Mcnp

/-! ### Specification -/

/-- The surface types of MCNP. -/
def surfaceTypes : List Str :=
  [p!"p", p!"px", p!"py", p!"pz",
   p!"so", p!"s", p!"sx", p!"sy", p!"sz", p!"sph",
   p!"cx", p!"cy", p!"cz", p!"c/x", p!"c/y", p!"c/z",
   p!"kx", p!"ky", p!"kz", p!"k/x", p!"k/y", p!"k/z",
   p!"sq", p!"gq", p!"tx", p!"ty", p!"tz",
   p!"box", p!"rpp", p!"rcc", p!"rhp", p!"hex", p!"rec", p!"trc", p!"ell", p!"wed", p!"arb"]

/-- The first line of a surface card: not blank, no continuation line, no comment. -/
def SurfHead (l : Str) : Prop := ¬ Cont l ∧ ¬ Spec.Blank l ∧ ∀ c ∈ l.head?, c ≠ 'c' ∧ c ≠ 'C'

/-- A line without influence: a comment line, or a blank line with fewer than five blanks at its start. -/
def SurfNoise (l : Str) : Prop := ¬ Cont l ∧ (Spec.Blank l ∨ l.head? = some 'c' ∨ l.head? = some 'C')

/-- A continuation line with text. -/
def SurfCont (l : Str) : Prop := Cont l ∧ ¬ Spec.Blank l

/-- `ws` are the words of the card with first line `head` and the other lines `rest`, in lower case. -/
def SurfWords (head : Str) (rest : List Str) (ws : List Str) : Prop :=
  SurfHead head ∧ (∀ l ∈ rest, SurfNoise l ∨ SurfCont l) ∧
    ∃ hw rw, Spec.IsWords head hw ∧ List.Forall₂ (fun l w => Spec.IsWords l w) (rest.filter (fun l => decide (Cont l))) rw ∧
      ws = (hw ++ rw.flatten).map lower

/-- The surface given by the words of a card. -/
def SurfOf (ws : List Str) (s : Surface) : Prop :=
  s.surfType ∈ surfaceTypes ∧ ∃ w0, pyInt w0 = some s.number ∧
    ((s.transform = none ∧ ws = w0 :: s.surfType :: s.params) ∨
     ∃ t, s.transform = some t ∧ t ≠ [] ∧ (∀ c ∈ t, c.isDigit = true) ∧ ws = w0 :: t :: s.surfType :: s.params)

/-! ### Proof -/

theorem types_iff (t : Str) : isSurfaceTypeValid t = true ↔ t ∈ surfaceTypes := by
  unfold isSurfaceTypeValid
  rw [List.contains_iff_mem]
  have h1 : ∀ x ∈ surfaceTypes, x ∈ [p!"p", p!"px", p!"py", p!"pz", p!"cx", p!"cy", p!"cz", p!"s", p!"so", p!"c/x", p!"c/y", p!"c/z", p!"gq", p!"sq",
   p!"sx", p!"sy", p!"sz", p!"kx", p!"ky", p!"kz", p!"k/x", p!"k/y", p!"k/z", p!"tx", p!"ty", p!"tz",
   p!"rpp", p!"rcc", p!"box", p!"sph", p!"wed", p!"rec", p!"ell", p!"hex", p!"arb", p!"trc", p!"rhp"] := by decide
  have h2 : ∀ x ∈ [p!"p", p!"px", p!"py", p!"pz", p!"cx", p!"cy", p!"cz", p!"s", p!"so", p!"c/x", p!"c/y", p!"c/z", p!"gq", p!"sq",
   p!"sx", p!"sy", p!"sz", p!"kx", p!"ky", p!"kz", p!"k/x", p!"k/y", p!"k/z", p!"tx", p!"ty", p!"tz",
   p!"rpp", p!"rcc", p!"box", p!"sph", p!"wed", p!"rec", p!"ell", p!"hex", p!"arb", p!"trc", p!"rhp"], x ∈ surfaceTypes := by decide
  exact ⟨h2 t, h1 t⟩

private theorem types_no_digit : ∀ t ∈ surfaceTypes, strIsDigit t = false := by decide

private theorem mem_of_isWords {l : Str} {ws : List Str} (h : Spec.IsWords l ws) {w : Str} (hw : w ∈ ws) {c : Char} (hc : c ∈ w) :
    c ∈ l := by
  induction h with
  | blank _ => simp at hw
  | word _ _ _ _ ih =>
    rcases List.mem_cons.1 hw with rfl | hw
    · simp [hc]
    · simp [ih hw]

private theorem forall₂_mem_right {α β : Type} {R : α → β → Prop} {xs : List α} {ys : List β} (h : List.Forall₂ R xs ys) {y : β}
    (hy : y ∈ ys) : ∃ x ∈ xs, R x y := by
  induction h with
  | nil => simp at hy
  | cons h1 _ ih =>
    rcases List.mem_cons.1 hy with rfl | hy
    · exact ⟨_, by simp, h1⟩
    · obtain ⟨x, hx, hr⟩ := ih hy
      exact ⟨x, by simp [hx], hr⟩

private theorem strIsDigit_iff' (t : Str) : strIsDigit t = true ↔ t ≠ [] ∧ ∀ c ∈ t, c.isDigit = true := by
  unfold strIsDigit isDigit
  cases t <;> simp

/-- A text of words without blanks, separated by single blanks. -/
def Txt (ws : List Str) : Str := join p!" " ws

private theorem txt_append {a b : List Str} (ha : a ≠ []) (hb : b ≠ []) : Txt a ++ p!" " ++ Txt b = Txt (a ++ b) := by
  unfold Txt
  induction a with
  | nil => exact absurd rfl ha
  | cons x xs ih =>
    cases xs with
    | nil =>
      rw [List.singleton_append, join_cons hb]
      simp [join]
    | cons y ys =>
      rw [join_cons (x := x) (xs := y :: ys) (by simp), show x :: y :: ys ++ b = x :: (y :: ys ++ b) from rfl,
        join_cons (x := x) (xs := y :: ys ++ b) (by simp), ← ih (by simp)]
      simp

def NoSp (ws : List Str) : Prop := ws ≠ [] ∧ ∀ w ∈ ws, w ≠ [] ∧ ∀ c ∈ w, isSpace c = false

private theorem words_of_txt {ws : List Str} (h : NoSp ws) : splitOn ' ' (lower (Txt ws)) = ws.map lower := by
  rw [splitOn_lower (by decide)]
  unfold Txt
  rw [splitOn_join h.1]
  intro w hw hm
  have := (h.2 w hw).2 ' ' hm
  simp [isSpace_space] at this

theorem txt_pos {ws : List Str} (h : NoSp ws) : (Txt ws).length > 0 := by
  obtain ⟨hne, h⟩ := h
  obtain ⟨w, ws, rfl⟩ := List.exists_cons_of_ne_nil hne
  have hw := (h w (by simp)).1
  unfold Txt
  cases ws with
  | nil => simpa [join] using List.length_pos_iff.2 hw
  | cons v vs =>
    rw [join_cons (by simp)]
    have := List.length_pos_iff.2 hw
    simp only [List.length_append]; omega

theorem isWords_noSp {l : Str} {ws : List Str} (hb : ¬ Spec.Blank l) (h : Spec.IsWords l ws) : NoSp ws := by
  have hw := splitWs_of_isWords h
  constructor
  · rintro rfl
    apply hb
    cases h with
    | blank h => exact h
  · intro w hm
    rw [← hw] at hm
    exact mem_splitWs hm

theorem clean_txt {l : Str} {ws : List Str} (h : Spec.IsWords l ws) : stringCleaner l = Txt ws := by
  rw [stringCleaner_eq, splitWs_of_isWords h]; rfl

private theorem procLine_ok {ws : List Str} (h : NoSp ws) {s : Surface} (hs : SurfOf (ws.map lower) s) :
    processSurfaceLine (Txt ws) = .ok s := by
  unfold processSurfaceLine checkSurfTransform
  rw [words_of_txt h]
  obtain ⟨n, ty, pa, tr⟩ := s
  obtain ⟨hty, w0, hn, ⟨ht, hw⟩ | ⟨t, ht, hne, hd, hw⟩⟩ := hs
  · simp only at ht hw hty hn
    subst ht
    rw [hw]
    have h1 := types_no_digit _ hty
    have h2 := (types_iff _).2 hty
    simp [orErr, ex_ok_bind, hn, h1, h2, ex_pure]
  · simp only at ht hw hty hn
    subst ht
    rw [hw]
    have h1 := (strIsDigit_iff' t).2 ⟨hne, hd⟩
    have h2 := (types_iff _).2 hty
    simp [orErr, ex_ok_bind, hn, h1, h2, ex_pure]

private theorem blank_strip {l : Str} (h : Spec.Blank l) : strip l = [] := by
  exact strip_eq_nil_iff.2 h

private theorem surfStep_noise (st : Dict Int Surface × Str) {l : Str} (h : SurfNoise l) : surfStep st l = .ok st := by
  have hc : isContinueLine l = false := by rw [Bool.eq_false_iff, ne_eq, isContinueLine_iff]; exact h.1
  unfold surfStep
  rw [hc]
  rcases h.2 with hb | hb | hb
  · simp [blank_strip hb]
  · cases l with
    | nil => simp at hb
    | cons c cs =>
      simp only [List.head?_cons, Option.some.injEq] at hb
      subst hb
      have : startsWith (lower ('c' :: cs)) p!"c" = true := by simp [startsWith, lower]
      rw [this]; simp
  · cases l with
    | nil => simp at hb
    | cons c cs =>
      simp only [List.head?_cons, Option.some.injEq] at hb
      subst hb
      have : startsWith (lower ('C' :: cs)) p!"c" = true := by simp [startsWith, lower]
      rw [this]; simp

private theorem surfStep_cont (d : Dict Int Surface) {ws vs : List Str} (hws : NoSp ws) {l : Str} (h : SurfCont l)
    (hv : Spec.IsWords l vs) : surfStep (d, Txt ws) l = .ok (d, Txt (ws ++ vs)) := by
  unfold surfStep
  rw [if_pos (isContinueLine_iff.2 h.1), clean_txt hv, txt_append hws.1 (isWords_noSp h.2 hv).1]

private theorem noSp_append {a b : List Str} (ha : NoSp a) (hb : NoSp b) : NoSp (a ++ b) := by
  refine ⟨by simp [ha.1], fun w hw => ?_⟩
  rcases List.mem_append.1 hw with h | h
  · exact ha.2 w h
  · exact hb.2 w h

private theorem surf_rest (rest : List Str) (h : ∀ l ∈ rest, SurfNoise l ∨ SurfCont l) :
    ∀ (rw : List (List Str)), List.Forall₂ (fun l w => Spec.IsWords l w) (rest.filter (fun l => decide (Cont l))) rw →
    ∀ (d : Dict Int Surface) (ws : List Str), NoSp ws →
      rest.foldlM surfStep (d, Txt ws) = .ok (d, Txt (ws ++ rw.flatten)) ∧ NoSp (ws ++ rw.flatten) := by
  induction rest with
  | nil =>
    intro rw hrw d ws hws
    cases hrw
    simpa using ⟨rfl, hws⟩
  | cons l ls ih =>
    intro rw hrw d ws hws
    have ih := ih (fun l hl => h l (by simp [hl]))
    rw [List.foldlM_cons]
    rcases h l (by simp) with hl | hl
    · rw [List.filter_cons_of_neg (by simpa using hl.1)] at hrw
      rw [surfStep_noise _ hl, ex_ok_bind]
      exact ih rw hrw d ws hws
    · rw [List.filter_cons_of_pos (by simpa using hl.1)] at hrw
      cases hrw with
      | cons h1 h2 =>
        rename_i v vs
        rw [surfStep_cont d hws hl h1, ex_ok_bind]
        have := ih vs h2 d (ws ++ v) (noSp_append hws (isWords_noSp hl.2 h1))
        simpa using this

theorem surfStep_head {l : Str} (h : SurfHead l) {hw : List Str} (hhw : Spec.IsWords l hw) (st : Dict Int Surface × Str) :
    surfStep st l = if st.2.length > 0 then (do
      let s ← processSurfaceLine st.2
      pure (st.1.set s.number s, Txt hw)) else .ok (st.1, Txt hw) := by
  obtain ⟨h1, h2, h3⟩ := h
  have hc : isContinueLine l = false := by rw [Bool.eq_false_iff, ne_eq, isContinueLine_iff]; exact h1
  have hs : strip l ≠ [] := by
    intro h
    apply h2
    rw [strip_eq_nil_iff] at h
    exact h
  have hcc : startsWith (lower l) p!"c" = false := by
    rw [Bool.eq_false_iff]
    cases l with
    | nil => simp [startsWith, lower]
    | cons c cs =>
      intro h
      have hc' := h3 c (by simp)
      simp [startsWith, lower] at h
      rcases (toLower_eq_letter (d := 'c') (D := 'C') (by decide) (by decide) (by decide)).1 h.symm with h | h
      · exact hc'.1 h
      · exact hc'.2 h
  unfold surfStep
  rw [hc, hcc, clean_txt hhw]
  simp [hs]

private def runSurf (st : Dict Int Surface × Str) (ls : List Str) : Except Err (Dict Int Surface) := do
  let st ← ls.foldlM surfStep st
  if st.2.length > 0 then
    let s ← processSurfaceLine st.2
    pure (st.1.set s.number s)
  else pure st.1

private theorem runSurf_append {st st' : Dict Int Surface × Str} {a : List Str} (b : List Str)
    (h : a.foldlM surfStep st = .ok st') : runSurf st (a ++ b) = runSurf st' b := by
  unfold runSurf
  rw [List.foldlM_append, h]; rfl

/-- The state before a card: nothing pending, or a pending card that gives a surface. -/
private def Ready (st : Dict Int Surface × Str) (d : Dict Int Surface) : Prop :=
  (st.2 = [] ∧ st.1 = d) ∨ ∃ ws s, NoSp ws ∧ SurfOf (ws.map lower) s ∧ st.2 = Txt ws ∧ d = st.1.set s.number s

private theorem card_fold {head : Str} {rest : List Str} {ws : List Str} (hg : SurfWords head rest ws)
    {st : Dict Int Surface × Str} {d : Dict Int Surface} (hst : Ready st d) :
    ∃ vs, NoSp vs ∧ ws = vs.map lower ∧ (head :: rest).foldlM surfStep st = .ok (d, Txt vs) := by
  obtain ⟨h1, h2, hw, rw', h3, h4, rfl⟩ := hg
  have hn := isWords_noSp h1.2.1 h3
  have hr := surf_rest rest h2 rw' h4 d hw hn
  refine ⟨hw ++ rw'.flatten, hr.2, rfl, ?_⟩
  rw [List.foldlM_cons, surfStep_head h1 h3]
  rcases hst with ⟨a, b⟩ | ⟨ws, s, a, b, c, e⟩
  · rw [if_neg (by rw [a]; simp), ex_ok_bind, b]; exact hr.1
  · rw [if_pos (by rw [c]; exact txt_pos a), c, procLine_ok a b, ex_ok_bind, ex_pure, ex_ok_bind, ← e]
    exact hr.1

private theorem run_cards (groups : List (Str × List Str)) (ss : List Surface)
    (h : List.Forall₂ (fun g s => ∃ ws, SurfWords g.1 g.2 ws ∧ SurfOf ws s) groups ss) :
    ∀ (st : Dict Int Surface × Str) (d : Dict Int Surface) (more : List Str), Ready st d →
      ∃ st', Ready st' ((ss.map (fun s => (s.number, s))).foldl (fun (d : Dict Int Surface) e => d.set e.1 e.2) d) ∧
        runSurf st (groups.flatMap (fun g => g.1 :: g.2) ++ more) = runSurf st' more := by
  induction h with
  | nil => intro st d more hst; exact ⟨st, hst, rfl⟩
  | cons hg _ ih =>
    rename_i g s gs ss' _
    intro st d more hst
    obtain ⟨ws, h1, h2⟩ := hg
    obtain ⟨vs, hv, rfl, hf⟩ := card_fold h1 hst
    obtain ⟨st', h3, h4⟩ := ih (d, Txt vs) (d.set s.number s) more (.inr ⟨vs, s, hv, h2, rfl, rfl⟩)
    refine ⟨st', h3, ?_⟩
    rw [List.flatMap_cons, List.append_assoc, runSurf_append _ hf, h4]

private theorem run_ready {st : Dict Int Surface × Str} {d : Dict Int Surface} (h : Ready st d) : runSurf st [] = .ok d := by
  unfold runSurf
  rw [List.foldlM_nil, ex_pure, ex_ok_bind]
  rcases h with ⟨a, b⟩ | ⟨ws, s, a, b, c, e⟩
  · rw [if_neg (by rw [a]; simp), b]; rfl
  · rw [if_pos (by rw [c]; exact txt_pos a), c, procLine_ok a b, e]; rfl

private theorem run_noise (pre : List Str) (hpre : ∀ l ∈ pre, SurfNoise l) (st : Dict Int Surface × Str) :
    pre.foldlM surfStep st = .ok st := by
  induction pre with
  | nil => rfl
  | cons l ls ih =>
    rw [List.foldlM_cons, surfStep_noise _ (hpre l (by simp)), ex_ok_bind]
    exact ih (fun l hl => hpre l (by simp [hl]))

/-- C88 (part that holds): the surfaces of a block of surface cards. `SurfNoise` does not cover blank lines with five or more
    blanks (`C88_blank_line_violated`, `C88_separator_violated`). -/
theorem C88_surfaces_partial (pre : List Str) (groups : List (Str × List Str)) (ss : List Surface)
    (hpre : ∀ l ∈ pre, SurfNoise l)
    (h : List.Forall₂ (fun g s => ∃ ws, SurfWords g.1 g.2 ws ∧ SurfOf ws s) groups ss) :
    ∃ d, processSurfaceBlock (pre ++ groups.flatMap (fun g => g.1 :: g.2)) = .ok d ∧ d.keys.Nodup ∧
      ∀ n s, d.get n = some s ↔ LastWins (ss.map (fun s => (s.number, s))) n s := by
  obtain ⟨st', h1, h2⟩ := run_cards groups ss h ([], []) [] [] (.inl ⟨rfl, rfl⟩)
  refine ⟨_, ?_, Dict.nodup_keys_foldl_set _ _ (by simp [Dict.keys]), fun n s => get_foldl_lastWins _ n s⟩
  show runSurf ([], []) _ = _
  rw [runSurf_append _ (run_noise pre hpre _)]
  rw [List.append_nil] at h2
  rw [h2]
  exact run_ready h1

/-- C88: an unknown surface type gives a ValueError, whatever follows (when the cards before are good). -/
theorem C88_unknown_type_partial (pre : List Str) (groups : List (Str × List Str)) (ss : List Surface) (bad : Str × List Str)
    (w0 ty : Str) (params : List Str) (n : Int) (tr : List Str) (more : List Str)
    (hpre : ∀ l ∈ pre, SurfNoise l)
    (h : List.Forall₂ (fun g s => ∃ ws, SurfWords g.1 g.2 ws ∧ SurfOf ws s) groups ss)
    (hbad : SurfWords bad.1 bad.2 (w0 :: tr ++ ty :: params)) (hn : pyInt w0 = some n)
    (htr : (tr = [] ∧ strIsDigit ty = false) ∨ ∃ t, tr = [t] ∧ strIsDigit t = true) (hty : ty ∉ surfaceTypes)
    (hmore : more = [] ∨ ∃ l ls, more = l :: ls ∧ SurfHead l) :
    processSurfaceBlock (pre ++ (groups.flatMap (fun g => g.1 :: g.2) ++ ((bad.1 :: bad.2) ++ more))) = .error .ValueError := by
  obtain ⟨st', h1, h2⟩ := run_cards groups ss h ([], []) [] ((bad.1 :: bad.2) ++ more) (.inl ⟨rfl, rfl⟩)
  obtain ⟨vs, hv, hvw, hf⟩ := card_fold hbad h1
  show runSurf ([], []) _ = _
  rw [runSurf_append _ (run_noise pre hpre _), h2, runSurf_append _ hf]
  have hval : isSurfaceTypeValid ty = false := by rw [Bool.eq_false_iff, ne_eq, types_iff]; exact hty
  have herr : processSurfaceLine (Txt vs) = .error .ValueError := by
    unfold processSurfaceLine checkSurfTransform
    rw [words_of_txt hv, ← hvw]
    rcases htr with ⟨rfl, hd⟩ | ⟨t, rfl, hd⟩
    · simp [orErr, ex_ok_bind, hn, hd, hval, ex_pure]
    · simp [orErr, ex_ok_bind, hn, hd, hval, ex_pure]
  unfold runSurf
  rcases hmore with rfl | ⟨l, ls, rfl, hl⟩
  · rw [List.foldlM_nil, ex_pure, ex_ok_bind, if_pos (txt_pos hv), herr]; rfl
  · rw [List.foldlM_cons, surfStep_head hl (isWords_splitWs l), if_pos (txt_pos hv), herr]; rfl

/-- C88 is violated: a line of blanks inside the block adds an empty parameter. -/
theorem C88_blank_line_violated : processSurfaceBlock [p!"1 px 5", p!"      "] =
    .ok [(1, ⟨1, p!"px", [p!"5", p!""], none⟩)] := by decide +kernel

/-- C88 is violated: a separator line of five blanks before the first surface gives a ValueError. -/
theorem C88_separator_violated : processSurfaceBlock [p!"     ", p!"1 px 5"] = .error .ValueError := by decide +kernel

/-- Surfaces with a reflecting boundary or a periodic surface cannot be read. -/
theorem C88_reflecting_limit : processSurfaceBlock [p!"*5 px 0"] = .error .ValueError ∧
    processSurfaceBlock [p!"5 -6 px 0"] = .error .ValueError := by decide +kernel

example : processSurfaceBlock [p!"c planes", p!"1 PX 5", p!"2 7 rpp 0 1", p!"c inside", p!"      0 1 ", p!"     0 1", p!"1 so 3"] =
    .ok [(1, ⟨1, p!"so", [p!"3"], none⟩), (2, ⟨2, p!"rpp", [p!"0", p!"1", p!"0", p!"1", p!"0", p!"1"], some p!"7"⟩)] := by decide +kernel
example : SurfOf [p!"2", p!"7", p!"so", p!"3"] ⟨2, p!"so", [p!"3"], some p!"7"⟩ :=
  ⟨by decide, p!"2", by decide +kernel, .inr ⟨p!"7", rfl, by simp, by simp, rfl⟩⟩

private theorem words_of_txt' {ws : List Str} (h : ws ≠ []) (hs : ∀ w ∈ ws, ' ' ∉ w) : splitOn ' ' (lower (Txt ws)) = ws.map lower := by
  rw [splitOn_lower (by decide)]
  unfold Txt
  rw [splitOn_join h]
  exact hs

private theorem run_dirty (ls : List Str) : ∀ (d : Dict Int Surface) (t : Str), runSurf (d, ' ' :: t) ls = .error .ValueError := by
  have hp : ∀ t, processSurfaceLine (' ' :: t) = .error .ValueError := by
    intro t
    unfold processSurfaceLine
    have h0 : (splitOn ' ' (lower (' ' :: t)))[0]? = some [] := by
      rw [splitOn_zero]
      exact ⟨by simp, .inr ⟨lower t, by simp [lower]⟩⟩
    simp only [h0, orErr, ex_ok_bind]
    rfl
  induction ls with
  | nil =>
    intro d t
    unfold runSurf
    rw [List.foldlM_nil, ex_pure, ex_ok_bind, if_pos (by simp), hp]; rfl
  | cons l ls ih =>
    intro d t
    have hstep : (∃ t', surfStep (d, ' ' :: t) l = .ok (d, ' ' :: t')) ∨ surfStep (d, ' ' :: t) l = .error .ValueError := by
      unfold surfStep
      split
      · exact .inl ⟨_, by simp only [List.cons_append]; rfl⟩
      · split
        · exact .inl ⟨_, rfl⟩
        · split
          · exact .inl ⟨_, rfl⟩
          · right
            rw [if_pos (by simp), hp]; rfl
    rcases hstep with ⟨t', h⟩ | h
    · have := ih d t'
      unfold runSurf at this ⊢
      rw [List.foldlM_cons, h, ex_ok_bind]
      exact this
    · unfold runSurf
      rw [List.foldlM_cons, h]; rfl

/-- C88 is violated by every block with a blank line of at least five blanks (or any continuation line) before its first card: ValueError,
    whatever follows. -/
theorem C88_blanks_before_violated (pre more : List Str) (sep : Str) (hpre : ∀ l ∈ pre, SurfNoise l) (hsep : Cont sep) :
    processSurfaceBlock (pre ++ sep :: more) = .error .ValueError := by
  show runSurf ([], []) (pre ++ sep :: more) = _
  rw [runSurf_append _ (run_noise pre hpre _), show sep :: more = [sep] ++ more from rfl,
    runSurf_append (st' := ([], ' ' :: stringCleaner sep)) more]
  · exact run_dirty more _ _
  · rw [List.foldlM_cons]
    unfold surfStep
    rw [if_pos (isContinueLine_iff.2 hsep)]; rfl

/-- C88 is violated by every card with a blank line of at least five blanks behind it: the line becomes an empty parameter. -/
theorem C88_blanks_behind_violated (pre rest ws : List Str) (head sep : Str) (s : Surface) (hpre : ∀ l ∈ pre, SurfNoise l)
    (hw : SurfWords head rest ws) (hs : SurfOf ws s) (hsep : Cont sep) (hb : Spec.Blank sep) :
    processSurfaceBlock (pre ++ (head :: rest ++ [sep])) = .ok [(s.number, { s with params := s.params ++ [[]] })] := by
  show runSurf ([], []) (pre ++ (head :: rest ++ [sep])) = _
  obtain ⟨vs, hv, rfl, hf⟩ := card_fold hw (st := ([], [])) (d := []) (.inl ⟨rfl, rfl⟩)
  rw [runSurf_append _ (run_noise pre hpre _), runSurf_append _ hf]
  have hstep : surfStep ([], Txt vs) sep = .ok ([], Txt (vs ++ [[]])) := by
    unfold surfStep
    rw [if_pos (isContinueLine_iff.2 hsep), clean_txt (Spec.IsWords.blank hb), ← txt_append hv.1 (by simp : [([] : Str)] ≠ [])]
    rfl
  have hline : processSurfaceLine (Txt (vs ++ [[]])) = .ok { s with params := s.params ++ [[]] } := by
    have hwd := words_of_txt' (ws := vs ++ [[]]) (by simp) (by
      intro w hw hm
      rcases List.mem_append.1 hw with h | h
      · have := (hv.2 w h).2 ' ' hm
        simp [isSpace_space] at this
      · simp at h; rw [h] at hm; simp at hm)
    unfold processSurfaceLine checkSurfTransform
    rw [hwd, List.map_append]
    obtain ⟨n, ty, pa, tr⟩ := s
    obtain ⟨hty, w0, hn, ⟨ht, hw⟩ | ⟨t, ht, hne, hd, hw⟩⟩ := hs
    · simp only at ht hw hty hn
      subst ht
      rw [hw]
      have h1 := types_no_digit _ hty
      have h2 := (types_iff _).2 hty
      simp [orErr, ex_ok_bind, hn, h1, h2, ex_pure, lower]
    · simp only at ht hw hty hn
      subst ht
      rw [hw]
      have h1 := (strIsDigit_iff' t).2 ⟨hne, hd⟩
      have h2 := (types_iff _).2 hty
      simp [orErr, ex_ok_bind, hn, h1, h2, ex_pure, lower]
  unfold runSurf
  rw [List.foldlM_cons, hstep, ex_ok_bind, List.foldlM_nil, ex_pure, ex_ok_bind, if_pos, hline]
  · rfl
  · have := txt_pos hv
    rw [← txt_append hv.1 (by simp : [([] : Str)] ≠ [])]
    simp only [List.length_append]; omega

/-! ### C89 -/

/-- C89 is violated: every word behind '$' becomes a parameter, for every comment. -/
theorem C89_violated (n : Nat) (ty : Str) (hty : ty ∈ surfaceTypes) (ps cs : List Str)
    (hps : ∀ w ∈ ps ++ cs, w ≠ [] ∧ ∀ c ∈ w, isSpace c = false) :
    ∃ d, processSurfaceBlock [join p!" " (natStr n :: ty :: ps ++ p!"$" :: cs)] = .ok d ∧
      d.get n = some ⟨n, ty, ps.map lower ++ p!"$" :: cs.map lower, none⟩ := by
  have htyw : ∀ t ∈ surfaceTypes, t ≠ [] ∧ (∀ c ∈ t, isSpace c = false) ∧ lower t = t := by decide
  have hns : NoSp (natStr n :: ty :: ps ++ p!"$" :: cs) := by
    refine ⟨by simp, ?_⟩
    intro w hw
    simp only [List.cons_append, List.mem_cons, List.mem_append] at hw
    rcases hw with rfl | rfl | hw | rfl | hw
    · exact ⟨natStr_ne_nil n, fun c hc => isDigit_not_space (natStr_isDigit (n := n) (c := c) hc)⟩
    · exact ⟨(htyw _ hty).1, (htyw _ hty).2.1⟩
    · exact hps w (by simp [hw])
    · exact ⟨by simp, by decide⟩
    · exact hps w (by simp [hw])
  have hwords : Spec.IsWords (join p!" " (natStr n :: ty :: ps ++ p!"$" :: cs)) (natStr n :: ty :: ps ++ p!"$" :: cs) := by
    have := isWords_splitWs (join p!" " (natStr n :: ty :: ps ++ p!"$" :: cs))
    rwa [splitWs_join hns.2] at this
  obtain ⟨c, rest, hc⟩ := List.exists_cons_of_ne_nil (natStr_ne_nil n)
  have hcd : c.isDigit = true := natStr_isDigit (n := n) (c := c) (by rw [hc]; simp)
  have hhead : (join p!" " (natStr n :: ty :: ps ++ p!"$" :: cs)).head? = some c := by
    rw [List.cons_append, join_cons (by simp), hc]; simp
  have hsurf : SurfHead (join p!" " (natStr n :: ty :: ps ++ p!"$" :: cs)) := by
    refine ⟨?_, ?_, ?_⟩
    · rintro ⟨t, ht⟩
      rw [← ht] at hhead
      simp at hhead
      subst hhead
      exact absurd hcd (by decide)
    · intro hb
      have : isSpace c = true := hb c (List.mem_of_mem_head? hhead)
      rw [isDigit_not_space hcd] at this
      exact absurd this (by simp)
    · intro d hd
      rw [hhead] at hd
      simp only [Option.mem_some_iff] at hd
      subst hd
      constructor
      · rintro rfl; exact absurd hcd (by decide)
      · rintro rfl; exact absurd hcd (by decide)
  obtain ⟨d, hd, _, hget⟩ := C88_surfaces_partial [] [(join p!" " (natStr n :: ty :: ps ++ p!"$" :: cs), [])]
    [⟨n, ty, ps.map lower ++ p!"$" :: cs.map lower, none⟩] (by simp)
    (.cons ⟨_, ⟨hsurf, by simp, _, [], hwords, .nil, rfl⟩, hty, natStr n, pyInt_natStr n,
      .inl ⟨rfl, by simp [natStr_lower, (htyw _ hty).2.2]; decide⟩⟩ .nil)
  refine ⟨d, by simpa using hd, (hget _ _).2 ⟨[], [], rfl, by simp⟩⟩

/-- C89 (part that holds): on cards without '$' no parameter contains '$'. -/
theorem C89_no_comment_partial (groups : List (Str × List Str)) (ss : List Surface)
    (h : List.Forall₂ (fun g s => ∃ ws, SurfWords g.1 g.2 ws ∧ SurfOf ws s) groups ss)
    (hno : ∀ g ∈ groups, ∀ l ∈ g.1 :: g.2, Cont l ∨ l = g.1 → '$' ∉ l) :
    ∃ d, processSurfaceBlock (groups.flatMap (fun g => g.1 :: g.2)) = .ok d ∧
      ∀ n s, d.get n = some s → ∀ w ∈ s.params, '$' ∉ w := by
  obtain ⟨d, h1, _, h2⟩ := C88_surfaces_partial [] groups ss (by simp) h
  refine ⟨d, by simpa using h1, ?_⟩
  have hall : ∀ s ∈ ss, ∀ w ∈ s.params, '$' ∉ w := by
    clear h1 h2
    induction h with
    | nil => simp
    | cons hg _ ih =>
      rename_i g s gs ss' _
      intro s' hs'
      rcases List.mem_cons.1 hs' with rfl | hs'
      · obtain ⟨ws, ⟨_, _, hw, rw', e1, e2, rfl⟩, _, w0, _, e3⟩ := hg
        have hmem : ∀ l w vs, Spec.IsWords l vs → w ∈ vs → '$' ∉ l → '$' ∉ lower w := by
          intro l w vs hv hw' hl hd
          have this' := splitWs_of_isWords hv
          rw [← this'] at hw'
          unfold lower at hd
          obtain ⟨c, hc, hc'⟩ := List.mem_map.1 hd
          have : c = '$' := (toLower_eq_low (by decide)).1 hc'
          subst this
          exact hl (mem_of_isWords hv (by rw [← this']; exact hw') hc)
        have hws : ∀ w ∈ (hw ++ rw'.flatten).map lower, '$' ∉ w := by
          intro w hw'
          obtain ⟨v, hv, rfl⟩ := List.mem_map.1 hw'
          rcases List.mem_append.1 hv with hv | hv
          · exact hmem g.1 v hw e1 hv (hno g (by simp) g.1 (by simp) (.inr rfl))
          · obtain ⟨vs, hvs, hv⟩ := List.mem_flatten.1 hv
            obtain ⟨l, hl, hlw⟩ := forall₂_mem_right e2 hvs
            obtain ⟨hl1, hl2⟩ := List.mem_filter.1 hl
            exact hmem l v vs hlw hv (hno g (by simp) l (by simp [hl1]) (.inl (by simpa using hl2)))
        intro w hw'
        apply hws
        rcases e3 with ⟨_, e3⟩ | ⟨t, _, _, _, e3⟩ <;> rw [e3] <;> simp [hw']
      · exact ih (fun g hg => hno g (by simp [hg])) s' hs'
  intro n s hs
  obtain ⟨a, b, hab, _⟩ := (h2 n s).1 hs
  have : (n, s) ∈ ss.map (fun s => (s.number, s)) := by rw [hab]; simp
  obtain ⟨s', hs', e⟩ := List.mem_map.1 this
  cases e
  exact hall s hs'

end Props
