/- Properties C100, C101, C104, C138, C139 of mcnp_output_reader.py. -/
import Verif.Proofs.McnpOutput

set_option linter.unusedSectionVars false
set_option linter.unusedSimpArgs false

namespace Props
open Py NeutUtilities McnpOutput
variable {F : Type}

/-! ### C100: cells and volumes -/

/-- A line that lists cells: the word "cell:" and numbers without a colon. -/
def CellLine (l : Str) (cs : List Str) : Prop := Spec.IsWords l (p!"cell:" :: cs) ∧ ∀ c ∈ cs, ':' ∉ c

/-- A line that lists volumes or masses: at least one word, no "cell:". -/
def VolLine (l : Str) (vs : List Str) : Prop := Spec.IsWords l vs ∧ vs ≠ [] ∧ ¬ p!"cell:" <:+: l

/-- The lines of the list with the cells and volumes on them, in order. -/
inductive CellList : List Str → List Str → List Str → Prop
  | nil : CellList [] [] []
  | cell {l cs ls cells vols} : CellLine l cs → CellList ls cells vols → CellList (l :: ls) (cs ++ cells) vols
  | vol {l vs ls cells vols} : VolLine l vs → CellList ls cells vols → CellList (l :: ls) cells (vs ++ vols)

private theorem isWords_infix {s : Str} {ws : List Str} (h : Spec.IsWords s ws) : ∀ w ∈ ws, w <:+: s := by
  induction h with
  | blank => simp
  | @word pre w rest ws _ _ _ _ ih =>
    intro v hv
    rcases List.mem_cons.1 hv with rfl | hv
    · exact ⟨pre, rest, rfl⟩
    · exact (ih v hv).trans ⟨pre ++ w, [], by simp⟩

private theorem words_ne_blank {l : Str} {ws : List Str} (h : Spec.IsWords l ws) (hne : ws ≠ []) : l ≠ p!" " := by
  rintro rfl
  rw [isWords_iff] at h
  exact hne (h.symm.trans (by decide +kernel))

private theorem cell_words {l : Str} {cs : List Str} (h : CellLine l cs) :
    ∃ s, (splitOn ':' (join p!" " (splitWs l)))[1]? = some s ∧ (splitOn ' ' s).drop 1 = cs := by
  obtain ⟨h1, h2⟩ := h
  rw [isWords_iff] at h1
  have hsp : ∀ c ∈ cs, ' ' ∉ c := by
    intro c hc hm
    have := (mem_splitWs (s := l) (w := c) (by rw [h1]; simp [hc])).2 ' ' hm
    simp [isSpace_space] at this
  rw [h1]
  by_cases hcs : cs = []
  · subst hcs
    exact ⟨[], by decide +kernel, by decide +kernel⟩
  · refine ⟨' ' :: join p!" " cs, ?_, ?_⟩
    · rw [join_cons hcs, splitOn_one]
      refine ⟨p!"cell", ' ' :: join p!" " cs, by simp, by decide, ?_, Or.inl rfl⟩
      intro hcol
      rcases List.mem_cons.1 hcol with h0 | hm
      · exact absurd h0 (by decide)
      · obtain ⟨c, hc, hmc⟩ : ∃ c ∈ cs, ':' ∈ c := by
          clear h1 h2 hsp hcs
          clear hcol
          induction cs with
          | nil => simp [join] at hm
          | cons x xs ih =>
            cases xs with
            | nil => exact ⟨x, by simp, by simpa [join] using hm⟩
            | cons y ys =>
              rw [join_cons (by simp)] at hm
              simp only [List.mem_append, List.mem_cons, List.not_mem_nil, or_false] at hm
              rcases hm with h | h | h
              · exact ⟨x, by simp, h⟩
              · exact absurd h (by decide)
              · obtain ⟨c, hc, hm⟩ := ih h
                exact ⟨c, by simp [hc], hm⟩
        exact h2 c hc hmc
    · unfold splitOn
      rw [splitP_cons_pos (by simp), List.drop_succ_cons, List.drop_zero]
      exact splitOn_join hcs hsp

private theorem loop_list {body cells vols : List Str} (h : CellList body cells vols) (rest : List Str) (k : Nat)
    (cs vs : List Str) :
    cellDataLoop (body ++ p!" " :: rest) k cs vs = .ok (cs ++ cells, vs ++ vols, k + body.length + 1) := by
  induction h generalizing k cs vs with
  | nil => simp [cellDataLoop]
  | @cell l cs' ls cells vols hl _ ih =>
    obtain ⟨s, h1, h2⟩ := cell_words hl
    have h3 : hasSub p!"cell:" l = true := hasSub_iff.2 (isWords_infix hl.1 _ (by simp))
    rw [List.cons_append, cellDataLoop, if_neg (words_ne_blank hl.1 (by simp)), if_pos h3, h1]
    simp only [orErr, ex_ok_bind, h2]
    rw [ih]
    simp; omega
  | @vol l vs' ls cells vols hl _ ih =>
    obtain ⟨h1, h2, h3⟩ := hl
    have h4 : ¬ hasSub p!"cell:" l = true := by rw [hasSub_iff]; exact h3
    have h5 : splitOn ' ' (join p!" " (splitWs l)) = vs' := by
      have := splitOn_stringCleaner (t := l) (by rw [isWords_iff.1 h1]; exact h2)
      rw [stringCleaner_eq, isWords_iff.1 h1] at this
      rw [isWords_iff.1 h1]; exact this
    rw [List.cons_append, cellDataLoop, if_neg (words_ne_blank h1 h2), if_neg h4, h5, ih]
    simp; omega

/-- Cells and volumes in order, and the index of the closing line, when every line has the usual layout. -/
theorem C100_lists_partial {head body rest cells vols : List Str} (h : CellList body cells vols) (i : Nat) (hi : head.length = i + 1) :
    getCellData (head ++ (body ++ p!" " :: rest)) i = .ok (cells, vols, i + body.length + 1) := by
  unfold getCellData
  rw [← hi, List.drop_left, loop_list h]
  simp only [ex_ok_bind, ex_pure, List.nil_append]
  congr 3
  omega

private theorem loop_error (ls : List Str) (k : Nat) (cs vs : List Str) (e : Err) :
    cellDataLoop ls k cs vs = .error e ↔ e = .IndexError ∧ p!" " ∉ ls := by
  induction ls generalizing k cs vs with
  | nil => simp [cellDataLoop, eq_comm]
  | cons l ls ih =>
    rw [cellDataLoop]
    by_cases h : l = p!" "
    · rw [if_pos h]; simp [h]
    · rw [if_neg h]
      have hm : (p!" " ∉ l :: ls) ↔ p!" " ∉ ls := by
        rw [List.mem_cons, not_or]
        exact ⟨fun x => x.2, fun x => ⟨fun y => h y.symm, x⟩⟩
      rw [hm]
      by_cases hc : hasSub p!"cell:" l = true
      · rw [if_pos hc]
        obtain ⟨s, hs⟩ : ∃ s, (splitOn ':' (join p!" " (splitWs l)))[1]? = some s := by
          obtain ⟨x, y, hxy⟩ := hasSub_iff.1 hc
          obtain ⟨v, hv, hin⟩ := infix_word (t := p!"cell:") x y (by simp) (by decide)
          rw [hxy] at hv
          have hmem : ':' ∈ join p!" " (splitWs l) := by
            have : ':' ∈ v := hin.subset (by simp)
            generalize splitWs l = W at hv
            induction W with
            | nil => simp at hv
            | cons a W ihW =>
              by_cases hW : W = []
              · subst hW
                have := List.mem_singleton.1 hv
                subst this
                simpa [join] using hin.subset (by simp : ':' ∈ p!"cell:")
              · rw [join_cons hW]
                rcases List.mem_cons.1 hv with rfl | hv
                · simp [this]
                · simp [ihW hv]
          have hlen : ¬ (splitOn ':' (join p!" " (splitWs l))).length < 2 := by
            rw [splitOn_length_lt_two]; simpa using hmem
          exact ⟨_, List.getElem?_eq_getElem (by omega)⟩
        rw [hs]
        simp only [orErr, ex_ok_bind]
        exact ih _ _ _
      · rw [if_neg hc]
        exact ih _ _ _

/-- IndexError exactly when no later line consists of one blank; there are no other errors. -/
theorem C100_index_error (lines : List Str) (i : Nat) (e : Err) :
    getCellData lines i = .error e ↔ e = .IndexError ∧ p!" " ∉ lines.drop (i + 1) := by
  unfold getCellData
  rw [ex_bind_err, loop_error]
  simp [ex_pure]

/-- An empty line, or a blank line of another length, does not end the list: it adds an empty text to the volumes. -/
theorem C100_blank_line_violated {l : Str} (hb : Spec.Blank l) (hl : l ≠ p!" ") (h : Str) (rest : List Str) :
    getCellData (h :: l :: p!" " :: rest) 0 = .ok ([], [[]], 2) := by
  have h1 : splitWs l = [] := splitWs_blank hb
  have h2 : ¬ hasSub p!"cell:" l = true := by
    rw [hasSub_iff]
    intro h
    exact absurd (hb 'c' (h.subset (by simp))) (by decide)
  unfold getCellData
  simp only [List.drop_succ_cons, List.drop_zero]
  rw [cellDataLoop, if_neg hl, if_neg h2, h1, cellDataLoop, if_pos rfl]
  rfl

/-- Only the text between the first and the second colon counts, and its first piece is dropped: without a blank behind "cell:"
    the first number is lost. -/
theorem C100_no_blank_violated (c : Str) (hc : c ≠ []) (h1 : ∀ x ∈ c, isSpace x = false) (h2 : ':' ∉ c) (h : Str) (rest : List Str) :
    getCellData (h :: (p!"cell:" ++ c) :: p!" " :: rest) 0 = .ok ([], [], 2) := by
  have hw : splitWs (p!"cell:" ++ c) = [p!"cell:" ++ c] := by
    apply splitWs_word (by simp)
    intro x hx
    rcases List.mem_append.1 hx with hx | hx
    · exact (by decide : ∀ x ∈ p!"cell:", isSpace x = false) x hx
    · exact h1 x hx
  have h3 : (splitOn ':' (join p!" " (splitWs (p!"cell:" ++ c))))[1]? = some c := by
    rw [hw, splitOn_one]
    exact ⟨p!"cell", c, by simp [join], by decide, h2, Or.inl rfl⟩
  have h4 : splitOn ' ' c = [c] := by
    unfold splitOn
    apply splitP_of_not_mem
    intro x hx
    simp only [beq_eq_false_iff_ne]
    rintro rfl
    have := h1 ' ' hx
    simp [isSpace_space] at this
  unfold getCellData
  simp only [List.drop_succ_cons, List.drop_zero]
  rw [cellDataLoop, if_neg (by simp), if_pos (hasSub_iff.2 ⟨[], c, by simp⟩), h3]
  simp only [orErr, ex_ok_bind, h4, List.drop_succ_cons, List.drop_zero, List.drop_nil, List.append_nil]
  rw [cellDataLoop, if_pos rfl]
  rfl

example : getCellData [p!"           volumes ", p!"                   cell:       1            2      ",
    p!"                         1.0E+00      2.0E+00", p!" ", p!"rest"] 0 = .ok ([p!"1", p!"2"], [p!"1.0E+00", p!"2.0E+00"], 3) := by
  decide +kernel

/-! ### C101: energy and time bins of several cells -/

private def shift (p st : ET F) : ET F :=
  ⟨p.times ++ st.times, p.energies ++ st.energies, p.values ++ st.values, p.uncerts ++ st.uncerts, st.curV, st.curU, st.reading⟩

private theorem step_shift (flt : Str → Option F) (p st : ET F) (l : Str) :
    etStep flt (shift p st) l = (etStep flt st l).map (shift p) := by
  obtain ⟨ts, es, vs, us, cv, cu, g⟩ := st
  unfold etStep
  simp only [shift]
  by_cases h1 : startsWith (strip l) p!"time:" = true
  · rw [if_pos h1, if_pos h1]
    cases (findNums (strip l)).mapM (pyFloat flt) with
    | error e => rfl
    | ok ts => simp [ex_ok_bind, ex_pure, Except.map, shift]
  rw [if_neg h1, if_neg h1]
  cases g with
  | false => rfl
  | true =>
    simp only [if_true]
    by_cases h3 : (startsWith (strip l) p!"total" || List.isEmpty (strip l)) = true
    · rw [if_pos h3, if_pos h3]
      cases cv with
      | nil => rfl
      | cons c cv =>
        simp only [List.isEmpty_cons, Bool.false_eq_true, if_false]
        cases npRows (c :: cv) with
        | error e => rfl
        | ok v =>
          cases npRows cu with
          | error e => rfl
          | ok u => simp [ex_ok_bind, ex_pure, Except.map, shift]
    rw [if_neg h3, if_neg h3]
    by_cases h4 : startsWith (strip l) p!"energy" = true
    · rw [if_pos h4, if_pos h4]; rfl
    rw [if_neg h4, if_neg h4]
    cases findNums (strip l) with
    | nil => rfl
    | cons e ds =>
      simp only
      cases pyFloat flt e with
      | error e => rfl
      | ok x =>
        cases ds.mapM (pyFloat flt) with
        | error e => rfl
        | ok xs => simp [ex_ok_bind, ex_pure, Except.map, shift]

private theorem run_shift (flt : Str → Option F) (p st : ET F) (ls : List Str) :
    ls.foldlM (etStep flt) (shift p st) = (ls.foldlM (etStep flt) st).map (shift p) := by
  induction ls generalizing st with
  | nil => rfl
  | cons l ls ih =>
    rw [List.foldlM_cons, List.foldlM_cons, step_shift]
    cases etStep flt st l with
    | error e => rfl
    | ok st' => simp only [Except.map, ex_ok_bind]; exact ih st'

/-- Outside of a block nothing is pending. -/
private def Inv (st : ET F) : Prop := st.curV.length = st.curU.length ∧ (st.reading = false → st.curV = [])

private theorem step_inv {flt : Str → Option F} {st st' : ET F} {l : Str} (h : etStep flt st l = .ok st') (hi : Inv st) : Inv st' := by
  unfold etStep at h
  simp only at h
  split at h
  · simp only [ex_bind_ok, ex_pure, Except.ok.injEq] at h
    obtain ⟨ts, _, rfl⟩ := h
    exact ⟨hi.1, by simp⟩
  · split at h
    · split at h
      · split at h
        · rename_i hc
          simp only [Except.ok.injEq] at h
          subst h
          exact ⟨hi.1, fun _ => by simpa using hc⟩
        · simp only [ex_bind_ok, ex_pure, Except.ok.injEq] at h
          obtain ⟨v, _, u, _, rfl⟩ := h
          exact ⟨rfl, fun _ => rfl⟩
      · split at h
        · simp only [Except.ok.injEq] at h; subst h; exact hi
        · split at h
          · simp only [Except.ok.injEq] at h; subst h; exact hi
          · simp only [ex_bind_ok, ex_pure, Except.ok.injEq] at h
            obtain ⟨x, _, xs, _, rfl⟩ := h
            rename_i hr _ _ _ _ _ _
            exact ⟨by simp [hi.1], fun hf => by simp_all⟩
    · simp only [Except.ok.injEq] at h; subst h; exact hi

private theorem run_inv {flt : Str → Option F} {st st' : ET F} {ls : List Str} (h : ls.foldlM (etStep flt) st = .ok st') (hi : Inv st) :
    Inv st' := by
  induction ls generalizing st with
  | nil => simp only [List.foldlM_nil, ex_pure, Except.ok.injEq] at h; subst h; exact hi
  | cons l ls ih =>
    rw [List.foldlM_cons, ex_bind_ok] at h
    obtain ⟨s, h1, h2⟩ := h
    exact ih h2 (step_inv h1 hi)

private theorem step_total {flt : Str → Option F} {st st' : ET F} {l : Str} (hl : p!"total" <+: strip l) (h : etStep flt st l = .ok st')
    : st'.reading = false := by
  have hnt : ¬ startsWith (strip l) p!"time:" = true := by
    rw [startsWith_iff]
    obtain ⟨t, ht⟩ := hl
    rw [← ht]
    rintro ⟨y, hy⟩
    simp at hy
  unfold etStep at h
  simp only at h
  rw [if_neg hnt] at h
  split at h
  · rw [if_pos (by rw [startsWith_iff.2 hl]; rfl)] at h
    split at h
    · simp only [Except.ok.injEq] at h; subst h; rfl
    · simp only [ex_bind_ok, ex_pure, Except.ok.injEq] at h
      obtain ⟨v, _, u, _, rfl⟩ := h
      rfl
  · rename_i hr
    simp only [Except.ok.injEq] at h
    subst h
    simpa using hr

private theorem zip_assoc : ∀ a b c : List (List F), List.zipWith (· ++ ·) (List.zipWith (· ++ ·) a b) c =
    List.zipWith (· ++ ·) a (List.zipWith (· ++ ·) b c)
  | [], _, _ => by simp
  | _ :: _, [], _ => by simp
  | _ :: _, _ :: _, [] => by simp
  | x :: a, y :: b, z :: c => by simp [zip_assoc a b c]

private theorem foldl_zip (bs : List (List (List F))) (a b : List (List F)) :
    bs.foldl (fun acc x => List.zipWith (· ++ ·) acc x) (List.zipWith (· ++ ·) a b) =
      List.zipWith (· ++ ·) a (bs.foldl (fun acc x => List.zipWith (· ++ ·) acc x) b) := by
  induction bs generalizing b with
  | nil => rfl
  | cons x bs ih => rw [List.foldl_cons, zip_assoc, ih, List.foldl_cons]

private theorem hstack_length {V : List (List (List F))} {v : List (List F)} (h : hstack V = .ok v) : ∀ x ∈ V, x.length = v.length := by
  cases V with
  | nil => simp [hstack] at h
  | cons b bs =>
    simp only [hstack] at h
    split at h
    · rename_i hb
      have h := Except.ok.inj h
      have hl : ∀ (l : List (List (List F))) (a : List (List F)), (∀ x ∈ l, x.length = a.length) →
          (l.foldl (fun acc x => List.zipWith (· ++ ·) acc x) a).length = a.length := by
        intro l
        induction l with
        | nil => intro a _; rfl
        | cons x l ih =>
          intro a ha
          have h1 : (List.zipWith (· ++ ·) a x).length = a.length := by simp [ha x (by simp)]
          rw [List.foldl_cons, ih _ (fun y hy => by rw [h1]; exact ha y (by simp [hy])), h1]
      have := hl bs b hb
      rw [h] at this
      intro x hx
      rcases List.mem_cons.1 hx with rfl | hx
      · exact this.symm
      · rw [hb x hx, this]
    · simp at h

private theorem hstack_append {V W : List (List (List F))} {v w : List (List F)} (h1 : hstack V = .ok v) (h2 : hstack W = .ok w)
    (hl : v.length = w.length) : hstack (V ++ W) = .ok (List.zipWith (· ++ ·) v w) := by
  have l1 := hstack_length h1
  have l2 := hstack_length h2
  cases V with
  | nil => simp [hstack] at h1
  | cons b bs =>
    cases W with
    | nil => simp [hstack] at h2
    | cons c cs =>
      simp only [hstack] at h1 h2
      split at h1
      · split at h2
        · simp only [Except.ok.injEq] at h1 h2
          rw [List.cons_append]
          simp only [hstack]
          rw [if_pos]
          · rw [List.foldl_append, h1, List.foldl_cons, foldl_zip, h2]
          · intro x hx
            rw [l1 b (by simp)]
            rcases List.mem_append.1 hx with hx | hx
            · exact l1 x (by simp [hx])
            · rw [hl]; exact l2 x hx
        · simp at h2
      · simp at h1

/-- Two complete blocks of lines read in one go: the rows of the second are glued to the rows of the first. -/
private theorem et_append [LinearOrder F] {flt : Str → Option F} {b1 b2 : List Str} {tl h : Str} {r1 r2 : List F × List F × List (List F) × List (List F)}
    (ht : p!"total" <+: strip tl) (hh : ¬ p!"time:" <+: strip h) (h1 : processEtUserbin flt (b1 ++ [tl]) = .ok r1)
    (h2 : processEtUserbin flt b2 = .ok r2) (hv : r1.2.2.1.length = r2.2.2.1.length) (hu : r1.2.2.2.length = r2.2.2.2.length) :
    ∃ ts es, processEtUserbin flt ((b1 ++ [tl]) ++ h :: b2) =
      .ok (ts, es, List.zipWith (· ++ ·) r1.2.2.1 r2.2.2.1, List.zipWith (· ++ ·) r1.2.2.2 r2.2.2.2) := by
  unfold processEtUserbin at h1 h2 ⊢
  simp only [ex_bind_ok, ex_pure, Except.ok.injEq] at h1 h2
  obtain ⟨s1, hs1, v1, hv1, u1, hu1, rfl⟩ := h1
  obtain ⟨s2, hs2, v2, hv2, u2, hu2, rfl⟩ := h2
  have hinv : Inv s1 := run_inv hs1 ⟨rfl, fun _ => rfl⟩
  have hread : s1.reading = false := by
    rw [List.foldlM_append, ex_bind_ok] at hs1
    obtain ⟨s, _, hs⟩ := hs1
    rw [List.foldlM_cons, ex_bind_ok] at hs
    obtain ⟨s', hs', he⟩ := hs
    simp only [List.foldlM_nil, ex_pure, Except.ok.injEq] at he
    subst he
    exact step_total ht hs'
  have hcv := hinv.2 hread
  have hcu : s1.curU = [] := by
    have := hinv.1
    rw [hcv] at this
    exact List.length_eq_zero_iff.1 this.symm
  have hs : s1 = shift s1 ⟨[], [], [], [], [], [], false⟩ := by
    obtain ⟨a, b, c, d, e, f, g⟩ := s1
    simp only at hcv hcu hread
    subst hcv hcu hread
    simp [shift]
  have hstep : etStep flt s1 h = .ok s1 := by
    unfold etStep
    simp only [hread]
    rw [if_neg (by rw [startsWith_iff]; exact hh)]
    simp
  have hrun : ((b1 ++ [tl]) ++ h :: b2).foldlM (etStep flt) ⟨[], [], [], [], [], [], false⟩ = .ok (shift s1 s2) := by
    rw [List.foldlM_append, hs1, ex_ok_bind, List.foldlM_cons, hstep, ex_ok_bind]
    conv_lhs => rw [hs]
    rw [run_shift, hs2]; rfl
  refine ⟨sortedSet (shift s1 s2).times, sortedSet (shift s1 s2).energies, ?_⟩
  rw [hrun, ex_ok_bind]
  have e1 : hstack (shift s1 s2).values = .ok (List.zipWith (· ++ ·) v1 v2) := hstack_append hv1 hv2 hv
  have e2 : hstack (shift s1 s2).uncerts = .ok (List.zipWith (· ++ ·) u1 u2) := hstack_append hu1 hu2 hu
  rw [e1, ex_ok_bind, e2, ex_ok_bind]
  rfl

private theorem findIdx_append {α : Type} {p : α → Bool} {a b : List α} {x : α} (ha : ∀ y ∈ a, p y = false) (hx : p x = true) :
    (a ++ x :: b).findIdx? p = some a.length := by
  rw [findIdx?_isLeast]
  refine ⟨⟨x, by simp, hx⟩, ?_⟩
  rintro j hj ⟨y, hy, hp⟩
  rw [List.getElem?_append_left hj] at hy
  rw [ha y (List.mem_of_getElem? hy)] at hp
  simp at hp

/-- One step of the loop over cells for energy and time bins: everything between the line of the cell and the first line beginning
    with " ===" is read as one block. -/
private theorem cell_step [LinearOrder F] {flt : Str → Option F} {tr : Bool} {t : Tally F} {cell : Str} {pre blk rest : List Str}
    {h l1 l2 s : Str} {bs : List Str} (hblk : blk = l1 :: l2 :: bs)
    (hh : p!" " ++ cell ++ p!" " <:+: h) (hp : ∀ l ∈ pre, ¬ p!" " ++ cell ++ p!" " <:+: l)
    (hl1 : p!"time" <:+: l1) (hl2 : p!"energy" <:+: l2) (hs : p!" ===" <+: s)
    (hn : ∀ l ∈ pre ++ h :: blk, ¬ p!" ===" <+: l) {xs ys : List (Item F)} (hx : t.result = .items xs) (hy : t.err = .items ys)
    {r : List F × List F × List (List F) × List (List F)} (hr : processEtUserbin flt blk = .ok r) :
    cellTallyStep flt tr (pre ++ h :: (blk ++ s :: rest), t) cell = .ok (pre ++ h :: (blk ++ s :: rest),
      { t with times := some (.nums r.1), eng := some r.2.1, result := .items (xs ++ [.mat r.2.2.1]),
               err := .items (ys ++ [.mat r.2.2.2]) }) := by
  have e1 : findInd (pre ++ h :: (blk ++ s :: rest)) (p!" " ++ cell ++ p!" ") = .ok pre.length := by
    rw [findInd_eq, findIdx_append (fun l hl => by rw [hasSub_false_iff]; exact hp l hl) (hasSub_iff.2 hh)]; rfl
  have e2 : at' (pre ++ h :: (blk ++ s :: rest)) (pre.length + 1) = .ok l1 := by
    unfold at'
    rw [List.getElem?_append_right (by omega), hblk]
    simp [orErr]
  have e3 : at' (pre ++ h :: (blk ++ s :: rest)) (pre.length + 2) = .ok l2 := by
    unfold at'
    rw [List.getElem?_append_right (by omega), hblk]
    have : pre.length + 2 - pre.length = 2 := by omega
    rw [this]
    simp [orErr]
  have e4 : findLine p!" ===" (pre ++ h :: (blk ++ s :: rest)) 4 = .ok (pre.length + 1 + blk.length) := by
    have : pre ++ h :: (blk ++ s :: rest) = (pre ++ h :: blk) ++ s :: rest := by simp
    rw [this, findLine_eq, findIdx_append (a := pre ++ h :: blk)]
    · simp only [orErr, List.length_append, List.length_cons]
      congr 1; omega
    · intro l hl
      rw [decide_eq_false_iff_not, take_eq_prefix (show p!" ===".length = 4 from rfl)]
      exact hn l hl
    · rw [decide_eq_true_eq, take_eq_prefix (show p!" ===".length = 4 from rfl)]
      exact hs
  have e5 : slice (pre ++ h :: (blk ++ s :: rest)) (pre.length + 1) (pre.length + 1 + blk.length) = blk := by
    have : pre ++ h :: (blk ++ s :: rest) = (pre ++ [h]) ++ (blk ++ s :: rest) := by simp
    unfold slice
    rw [this]
    have hlen : (pre ++ [h]).length = pre.length + 1 := by simp
    rw [← hlen, List.take_length_add_append, List.drop_left, List.take_left]
  unfold cellTallyStep
  simp only [e1, ex_ok_bind, e2, hasSub_iff.2 hl1, if_true, e4, e3, hasSub_iff.2 hl2, e5, hr, hx, hy, Res.append, ex_pure]

/-- A tally with energy and time bins over two cells: the matrix stored for the first cell has the columns of the second cell glued
    to its own, so it is not the matrix of its own lines (`r1`) as soon as the second cell has a non-empty row. -/
theorem C101_cells_mixed_violated [LinearOrder F] {flt : Str → Option F} {tr : Bool} {t : Tally F} {cell : Str} {pre bs b2 rest : List Str}
    {h h2 l1 l2 tl s : Str} (hh : p!" " ++ cell ++ p!" " <:+: h) (hp : ∀ l ∈ pre, ¬ p!" " ++ cell ++ p!" " <:+: l)
    (hl1 : p!"time" <:+: l1) (hl2 : p!"energy" <:+: l2) (htl : p!"total" <+: strip tl) (hh2 : ¬ p!"time:" <+: strip h2)
    (hs : p!" ===" <+: s) (hn : ∀ l ∈ pre ++ h :: ((l1 :: l2 :: (bs ++ [tl])) ++ h2 :: b2), ¬ p!" ===" <+: l) {xs ys : List (Item F)}
    (hx : t.result = .items xs) (hy : t.err = .items ys) {r1 r2 : List F × List F × List (List F) × List (List F)}
    (hr1 : processEtUserbin flt (l1 :: l2 :: (bs ++ [tl])) = .ok r1) (hr2 : processEtUserbin flt b2 = .ok r2)
    (hv : r1.2.2.1.length = r2.2.2.1.length) (hu : r1.2.2.2.length = r2.2.2.2.length) :
    (∃ t' ls, cellTallyStep flt tr (pre ++ h :: ((l1 :: l2 :: (bs ++ [tl])) ++ h2 :: b2 ++ s :: rest), t) cell = .ok (ls, t') ∧
      t'.result = .items (xs ++ [.mat (List.zipWith (· ++ ·) r1.2.2.1 r2.2.2.1)])) ∧
    ((∃ row ∈ r2.2.2.1, row ≠ []) → List.zipWith (· ++ ·) r1.2.2.1 r2.2.2.1 ≠ r1.2.2.1) := by
  constructor
  · obtain ⟨ts, es, he⟩ := et_append (b1 := l1 :: l2 :: bs) htl hh2 hr1 hr2 hv hu
    have := cell_step (tr := tr) (blk := (l1 :: l2 :: (bs ++ [tl])) ++ h2 :: b2) (bs := bs ++ [tl] ++ h2 :: b2) (rest := rest) rfl hh hp
      hl1 hl2 hs hn hx hy he
    exact ⟨_, _, this, rfl⟩
  · rintro ⟨row, hrow, hne⟩ heq
    obtain ⟨i, hi, rfl⟩ := List.getElem_of_mem hrow
    have h1 : i < r1.2.2.1.length := by rw [hv]; exact hi
    have := congrArg (fun l => l[i]?) heq
    simp only [List.getElem?_zipWith, List.getElem?_eq_getElem h1, List.getElem?_eq_getElem hi] at this
    simp at this
    exact hne this

/-- For the last (or only) cell before the line " ===" the stored matrix is built from its own lines. -/
theorem C101_last_cell_partial [LinearOrder F] {flt : Str → Option F} {tr : Bool} {t : Tally F} {cell : Str} {pre bs rest : List Str}
    {h l1 l2 s : Str} (hh : p!" " ++ cell ++ p!" " <:+: h) (hp : ∀ l ∈ pre, ¬ p!" " ++ cell ++ p!" " <:+: l)
    (hl1 : p!"time" <:+: l1) (hl2 : p!"energy" <:+: l2) (hs : p!" ===" <+: s)
    (hn : ∀ l ∈ pre ++ h :: (l1 :: l2 :: bs), ¬ p!" ===" <+: l) {xs ys : List (Item F)}
    (hx : t.result = .items xs) (hy : t.err = .items ys) {r : List F × List F × List (List F) × List (List F)}
    (hr : processEtUserbin flt (l1 :: l2 :: bs) = .ok r) :
    ∃ t' ls, cellTallyStep flt tr (pre ++ h :: ((l1 :: l2 :: bs) ++ s :: rest), t) cell = .ok (ls, t') ∧
      t'.result = .items (xs ++ [.mat r.2.2.1]) ∧ t'.err = .items (ys ++ [.mat r.2.2.2]) :=
  ⟨_, _, cell_step (tr := tr) (rest := rest) rfl hh hp hl1 hl2 hs hn hx hy hr, rfl, rfl⟩

/-- Two cells, one energy row each: the first cell gets the values 10 and 30. -/
example : (cellTallyStep pyNat false ([p!" cell  1 ", p!" time:  1 ", p!" energy ", p!" 5 10 20 ", p!" total 1 1", p!" cell  2 ", p!" time:  1 ",
    p!" energy ", p!" 5 30 40 ", p!" total 1 1", p!" ==="], (⟨4, '4', [], .inr 0, .items [], .items [], none, none, none, none, [], [], [], [],
    none, none, none, none, none, []⟩ : Tally Nat)) p!"1").map (fun r => r.2.result) = .ok (.items [.mat [[10, 30]]]) := by decide +kernel

/-! ### C104: pulse height tallies -/

/-- The cell of a pulse height tally is always reported as 2. -/
theorem C104_cell_violated {flt : Str → Option F} {t t' : Tally F} {lines : List Str} (h : readType8 flt t lines = .ok t') :
    t'.cells = [p!"2"] := by
  unfold readType8 at h
  simp only [ex_bind_ok] at h
  obtain ⟨i, _, l, _, h⟩ := h
  split at h
  · simp only [ex_bind_ok, ex_pure, Except.ok.injEq] at h
    obtain ⟨_, _, _, _, rfl⟩ := h
    rfl
  · simp only [ex_bind_ok, ex_pure, Except.ok.injEq] at h
    obtain ⟨_, _, _, _, _, _, _, _, _, _, _, _, rfl⟩ := h
    rfl

/-- A tally of any cell whose line does not begin with " cell  2" cannot be read. -/
theorem C104_other_cells_violated (flt : Str → Option F) (t : Tally F) {lines : List Str} (h : ∀ l ∈ lines, ¬ p!" cell  2" <+: l) :
    readType8 flt t lines = .error .ValueError := by
  unfold readType8
  rw [(findLine_none (show p!" cell  2".length = 8 from rfl)).2 ⟨rfl, h⟩]
  rfl

/-- For cell 2 with a single result the value and its error are returned with the right cell. -/
theorem C104_cell_two_partial (flt : Str → Option F) (t : Tally F) {pre rest : List Str} {l v a b : Str} {x y : F}
    (hp : ∀ l ∈ pre, ¬ p!" cell  2" <+: l) (hl : l = p!" cell  2" ∨ ∃ r, l = p!" cell  2 " ++ r) (hv : v ≠ p!"      energy   ")
    (hs : strip v = a ++ ' ' :: b) (ha : ' ' ∉ a) (hb : ' ' ∉ b) (hx : flt a = some x) (hy : flt b = some y)
    (hr : t.result = .items []) (he : t.err = .items []) :
    readType8 flt t (pre ++ l :: v :: rest) = .ok { t with cells := [p!"2"], result := .items [.num x], err := .items [.num y] } := by
  have hpre : p!" cell  2" <+: l := by
    rcases hl with rfl | ⟨r, rfl⟩
    · exact List.prefix_refl _
    · exact ⟨' ' :: r, by simp⟩
  have e1 : findLine p!" cell  2" (pre ++ l :: v :: rest) 8 = .ok pre.length := by
    rw [findLine_eq, findIdx_append]
    · rfl
    · intro y hy
      rw [decide_eq_false_iff_not, take_eq_prefix (show p!" cell  2".length = 8 from rfl)]
      exact hp y hy
    · rw [decide_eq_true_eq, take_eq_prefix (show p!" cell  2".length = 8 from rfl)]
      exact hpre
  have e2 : at' (pre ++ l :: v :: rest) (pre.length + 1) = .ok v := by
    unfold at'
    rw [List.getElem?_append_right (by omega)]
    simp [orErr]
  have e3 : (splitOn ' ' (strip v))[0]? = some a := by
    rw [splitOn_zero, hs]; exact ⟨ha, Or.inr ⟨b, rfl⟩⟩
  have e4 : (splitOn ' ' (strip v))[1]? = some b := by
    rw [splitOn_one, hs]; exact ⟨a, b, rfl, ha, hb, Or.inl rfl⟩
  unfold readType8
  simp only [e1, ex_ok_bind, e2]
  rw [if_neg hv]
  simp only [e3, e4, orErr, pyFloat, ex_ok_bind, hx, hy, hr, he, Res.append, ex_pure, List.nil_append]

/-- A tally of cell 23 is reported as one of cell 2. -/
example : (readType8 pyNat (⟨8, '8', [], .inr 0, .items [], .items [], none, none, none, none, [], [], [], [], none, none, none, none, none, []⟩
    : Tally Nat) [p!" cell  23", p!"   7 5 "]).map (fun t => (t.cells, t.result)) = .ok ([p!"2"], .items [.num 7]) := by decide +kernel

/-! ### C138: surfaces of a type 1 tally -/

private theorem surfTimes_len [LinearOrder F] (flt : Str → Option F) (t : Tally F) (s s' : List Str) (h : s.length = s'.length)
    (lines : List Str) (first : Nat) :
    surfTimes flt { t with surfaces := s' } lines first =
      (surfTimes flt { t with surfaces := s } lines first).map (fun x => { x with surfaces := s' }) := by
  unfold surfTimes
  simp only [← h]
  cases findLine p!" ===" lines 4 with
  | error e => rfl
  | ok e =>
    simp only [ex_ok_bind]
    cases at' (lines.take e) (first + 2) with
    | error e => rfl
    | ok l2 =>
      simp only [ex_ok_bind]
      split
      · split
        · cases surfEtLoop flt (lines.take e) s.length first none [] [] with
          | error e => rfl
          | ok r =>
            simp only [ex_ok_bind]
            cases orErr Err.UnboundLocalError r.1 <;> rfl
        · cases processEtUserbin flt (slice (lines.take e) (first + 1) e) <;> rfl
      · split
        · cases surfTimeLoop flt (lines.take e) s.length first [] [] [] <;> rfl
        · cases findInd (lines.take e) p!"total" with
          | error e => rfl
          | ok k =>
            simp only [ex_ok_bind]
            cases processTimeBinOnly flt (slice (lines.take e) (first + 1) (k + 2)) <;> rfl

/-- The order in which Python lists the set of surface numbers only shows in the list of surfaces: results and errors are the same
    whatever that order is, so the surfaces are not attached to their results. -/
theorem C138_surface_order_violated [LinearOrder F] (flt : Str → Option F) (m : F) (enum enum' : List Str → List Str) (t : Tally F)
    (lines : List Str) (ht : t.tallyType = '1') (hl : ∀ l, (enum l).length = (enum' l).length) :
    readTypeSurface flt m enum' t lines = (readTypeSurface flt m enum t lines).map
      (fun x => { x with surfaces := enum' (getType1SurfaceNumbers lines).dedup }) := by
  generalize hD : (getType1SurfaceNumbers lines).dedup = D
  have hlen := hl D
  unfold readTypeSurface
  have h2 : ¬ t.tallyType = '2' := by rw [ht]; decide
  rw [if_neg h2, if_neg h2]
  simp only [ex_pure, ex_ok_bind]
  rw [if_pos ht, if_pos ht, hD]
  cases findLine p!" surface " lines 9 with
  | error e => rfl
  | ok first =>
    simp only [ex_ok_bind]
    cases at' lines (first + 1) with
    | error e => rfl
    | ok l1 =>
      simp only [ex_ok_bind]
      by_cases c1 : hasSub p!"energy" l1 = true
      · rw [if_pos c1, if_pos c1]
        cases processEnergyBinnedSurfaceTally flt lines with
        | error e => rfl
        | ok r =>
          simp only [ex_ok_bind, withTable]
          cases orErr Err.StopIteration r.1.head? <;> rfl
      rw [if_neg c1, if_neg c1]
      by_cases c2 : hasSub p!"angle" l1 = true
      · rw [if_pos c2, if_pos c2]
        cases at' lines (first + 2) with
        | error e => rfl
        | ok l2 =>
          simp only [ex_ok_bind]
          by_cases c3 : l2 = p!"      energy   "
          · rw [if_pos c3, if_pos c3]
            unfold processEnergyAngleTally
            simp only
            cases (lines.drop first).foldlM (angStep flt) ⟨[m], [], [], [], t.eng, false⟩ <;> rfl
          · rw [if_neg c3, if_neg c3]; rfl
      rw [if_neg c2, if_neg c2]
      by_cases c4 : hasSub p!"time" l1 = true
      · rw [if_pos c4, if_pos c4]
        exact surfTimes_len flt { t with areas := [], surfaces := [] } (enum D) (enum' D) hlen lines first
      rw [if_neg c4, if_neg c4, ← hlen]
      by_cases c5 : (enum D).length > 1
      · rw [if_pos c5, if_pos c5]
        cases surfValueLoop flt lines (enum D).length 0 [] [] <;> rfl
      · rw [if_neg c5, if_neg c5]
        cases orErr Err.IndexError (splitOn ' ' (strip l1))[0]? with
        | error e => rfl
        | ok a =>
          simp only [ex_ok_bind]
          cases pyFloat flt a with
          | error e => rfl
          | ok a =>
            simp only [ex_ok_bind]
            cases orErr Err.IndexError (splitOn ' ' (strip l1))[1]? with
            | error e => rfl
            | ok b =>
              simp only [ex_ok_bind]
              cases pyFloat flt b <;> rfl

/-- Surface 3 has the result 10 and surface 4 the result 20, but a set may well list 4 first. -/
example : (readTypeSurface pyNat 0 List.reverse (⟨1, '1', [], .inr 0, .items [], .items [], none, none, none, none, [], [], [], [],
    none, none, none, none, none, []⟩ : Tally Nat) [p!"a", p!"b", p!" surface  3", p!"  10 1", p!" surface  4", p!" 20 2"]).map
    (fun t => (t.surfaces, t.result)) = .ok ([p!"4", p!"3"], .items [.num 10, .num 20]) := by decide +kernel

/-! ### C139: point detectors with user bins -/

/-- A point detector with user bins can never be read: the first user bin is recorded twice, so the first block is empty. -/
theorem C139_user_bins_violated [LinearOrder F] (flt : Str → Option F) (t : Tally F) {lines : List Str} {loc : Nat} {l rl : Str} {p : F × F × F}
    (h1 : findLine p!" detector located" lines 17 = .ok loc) (h2 : lines[loc]? = some l) (h3 : type5Position flt l = .ok p)
    (h4 : lines[loc + 1]? = some rl) (hu : p!"user bin" <:+: rl) (hnt : ¬ p!"time" <:+: rl) :
    readType5 flt t lines = .error .ValueError := by
  have hne : rl ≠ p!"      energy   " := by
    rintro rfl
    rw [← hasSub_iff] at hu
    exact absurd hu (by decide +kernel)
  have hdrop : lines.drop (loc + 1) = rl :: lines.drop (loc + 2) := by
    obtain ⟨hlt, he⟩ := List.getElem?_eq_some_iff.1 h4
    rw [← he, List.getElem_cons_drop]
  have hblocks : ∀ (bin : List Str) (ls : List Nat) (t : Tally F), userBlocks flt bin (0 :: 0 :: ls) t = .error .ValueError := by
    intro bin ls t
    rw [userBlocks]
    have : slice bin 0 0 = [] := by simp [slice]
    rw [this]
    rfl
  have hres : ∀ t : Tally F, type5Result flt t lines loc = .error .ValueError := by
    intro t
    unfold type5Result
    simp only [at', h4, orErr, ex_ok_bind]
    rw [if_neg hne, if_neg (by rw [hasSub_iff]; exact hnt), if_pos (hasSub_iff.2 hu), hdrop, userBinLoop, if_pos (hasSub_iff.2 hu)]
    simp only [List.map_cons]
    split <;> exact hblocks _ _ _
  unfold readType5
  simp only [h1, ex_ok_bind, at', h2, orErr, h3, hres]
  rfl

example : p!"user bin" <:+: p!" user bin   1" ∧ ¬ p!"time" <:+: p!" user bin   1" := by decide +kernel

end Props
