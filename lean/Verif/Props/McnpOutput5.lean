/- Property C141: energy and time bins (`process_e_t_userbin`). -/
import Verif.Proofs.McnpOutput

set_option linter.unusedSectionVars false
set_option linter.unusedSimpArgs false

namespace Props
open Py NeutUtilities McnpOutput
variable {F : Type}

/-- A character of a number: digit, point, capital E or sign. -/
def NumChar (c : Char) : Prop := c.isDigit = true ∨ c = '.' ∨ c = 'E' ∨ c = '+' ∨ c = '-'

/-- `ws` are the maximal runs of such characters in `s`, in order. -/
inductive IsNums : Str → List Str → Prop
  | none {s} : (∀ c ∈ s, ¬ NumChar c) → IsNums s []
  | run {pre w rest ws} : (∀ c ∈ pre, ¬ NumChar c) → w ≠ [] → (∀ c ∈ w, NumChar c) → (∀ c ∈ rest.head?, ¬ NumChar c) → IsNums rest ws →
      IsNums (pre ++ w ++ rest) (w :: ws)

private theorem numChar_iff (c : Char) : isNumChar c = true ↔ NumChar c := by
  unfold isNumChar NumChar isDigit
  simp only [Bool.or_eq_true, Bool.and_eq_true, decide_eq_true_eq, beq_iff_eq]
  tauto

private theorem nums_cons_not {c : Char} (hc : ¬ NumChar c) (s : Str) : findNums (c :: s) = findNums s := by
  unfold findNums
  rw [splitP_cons_pos (by simpa [← numChar_iff] using hc)]
  rfl

private theorem nums_skip {pre : Str} (h : ∀ c ∈ pre, ¬ NumChar c) (s : Str) : findNums (pre ++ s) = findNums s := by
  induction pre with
  | nil => rfl
  | cons c pre ih => rw [List.cons_append, nums_cons_not (h c (by simp)), ih (fun c hc => h c (by simp [hc]))]

private theorem nums_of {s : Str} {ws : List Str} (h : IsNums s ws) : findNums s = ws := by
  induction h with
  | @none s h =>
    have := nums_skip h []
    simpa [findNums, splitP] using this
  | @run pre w rest ws h1 h2 h3 h4 _ ih =>
    rw [List.append_assoc, nums_skip h1]
    have hw : ∀ c ∈ w, (fun c => !isNumChar c) c = false := by
      intro c hc; simpa [numChar_iff] using h3 c hc
    cases rest with
    | nil =>
      rw [List.append_nil]
      have : ws = [] := by rw [← ih]; rfl
      rw [this]
      unfold findNums
      rw [splitP_of_not_mem hw]
      simp [h2]
    | cons c rest =>
      have hc : ¬ NumChar c := h4 c (by simp)
      rw [nums_cons_not hc] at ih
      unfold findNums at ih ⊢
      rw [splitP_append_sep (by simpa [← numChar_iff] using hc), splitP_of_not_mem hw, List.singleton_append, List.filter_cons_of_pos (by simp [h2]), ih]

/-- One line of results: its energy and the pairs of value and error. -/
structure EtRow (F : Type) where
  line : Str
  energy : F
  pairs : List (F × F)

def EtRow.WF (flt : Str → Option F) (r : EtRow F) : Prop :=
  ¬ p!"time:" <+: strip r.line ∧ ¬ p!"total" <+: strip r.line ∧ ¬ p!"energy" <+: strip r.line ∧ strip r.line ≠ [] ∧
  ∃ w ws, IsNums (strip r.line) (w :: ws) ∧ flt w = some r.energy ∧
    List.Forall₂ (fun s x => flt s = some x) ws (r.pairs.flatMap (fun p => [p.1, p.2]))

/-- One block of results: times, column headings, rows and a closing line, which is a total or blank. -/
structure EtBlock (F : Type) where
  timeLine : Str
  times : List F
  heading : Str
  rows : List (EtRow F)
  closing : Str

def EtBlock.WF (flt : Str → Option F) (k n : Nat) (b : EtBlock F) : Prop :=
  (p!"time:" <+: strip b.timeLine ∧ ∃ ws, IsNums (strip b.timeLine) ws ∧ List.Forall₂ (fun s x => flt s = some x) ws b.times) ∧
  p!"energy" <+: strip b.heading ∧ b.rows.length = k ∧ (∀ r ∈ b.rows, r.WF flt ∧ r.pairs.length = n) ∧
  (p!"total" <+: strip b.closing ∨ strip b.closing = [])

def EtBlock.lines (b : EtBlock F) : List Str := b.timeLine :: b.heading :: (b.rows.map (·.line) ++ [b.closing])

private theorem forall_mapM {flt : Str → Option F} {ws : List Str} {xs : List F} (h : List.Forall₂ (fun s x => flt s = some x) ws xs) :
    ws.mapM (pyFloat flt) = .ok xs := by
  rw [mapM_except_ok_iff]
  exact h.imp (fun _ _ h => by unfold pyFloat; rw [h]; rfl)

private theorem evens_pairs (ps : List (F × F)) : evens (ps.flatMap (fun p => [p.1, p.2])) = ps.map (·.1) := by
  induction ps with
  | nil => rfl
  | cons p ps ih => simp only [List.flatMap_cons, List.cons_append, List.nil_append, evens, List.map_cons, ih]

private theorem odds_pairs (ps : List (F × F)) : odds (ps.flatMap (fun p => [p.1, p.2])) = ps.map (·.2) := by
  unfold odds
  induction ps with
  | nil => rfl
  | cons p ps ih =>
    cases ps with
    | nil => rfl
    | cons q ps =>
      simp only [List.flatMap_cons, List.cons_append, List.nil_append, List.drop_succ_cons, List.drop_zero, evens, List.map_cons] at ih ⊢
      rw [ih]

private theorem run_rows {flt : Str → Option F} {rows : List (EtRow F)} (h : ∀ r ∈ rows, r.WF flt) (st : ET F) (hr : st.reading = true) :
    (rows.map (·.line)).foldlM (etStep flt) st = .ok
      { st with energies := st.energies ++ rows.map (·.energy), curV := st.curV ++ rows.map (fun r => r.pairs.map (·.1)),
                curU := st.curU ++ rows.map (fun r => r.pairs.map (·.2)) } := by
  induction rows generalizing st with
  | nil => simp [ex_pure]
  | cons r rows ih =>
    obtain ⟨h1, h2, h3, h4, w, ws, hn, he, hp⟩ := h r (by simp)
    have hs : etStep flt st r.line = .ok
        { st with energies := st.energies ++ [r.energy], curV := st.curV ++ [r.pairs.map (·.1)],
                  curU := st.curU ++ [r.pairs.map (·.2)] } := by
      unfold etStep
      simp only
      rw [if_neg (by rw [startsWith_iff]; exact h1), if_pos hr, if_neg, if_neg (by rw [startsWith_iff]; exact h3), nums_of hn]
      · have he' : pyFloat flt w = .ok r.energy := by unfold pyFloat; rw [he]; rfl
        simp only [he', forall_mapM hp, ex_ok_bind, ex_pure, evens_pairs, odds_pairs]
      · simp only [Bool.or_eq_true, startsWith_iff, List.isEmpty_iff, not_or]
        exact ⟨h2, h4⟩
    rw [List.map_cons, List.foldlM_cons, hs, ex_ok_bind]
    have := ih (fun r hr => h r (by simp [hr])) { st with energies := st.energies ++ [r.energy], curV := st.curV ++ [r.pairs.map (·.1)],
                                                          curU := st.curU ++ [r.pairs.map (·.2)] } hr
    rw [this]
    simp

private theorem run_block {flt : Str → Option F} {k n : Nat} (hk : 0 < k) {b : EtBlock F} (h : b.WF flt k n) (ts es : List F) (vs us : List (List (List F))) (g : Bool) :
    b.lines.foldlM (etStep flt) ⟨ts, es, vs, us, [], [], g⟩ = .ok ⟨ts ++ b.times, es ++ b.rows.map (·.energy),
      vs ++ [b.rows.map (fun r => r.pairs.map (·.1))], us ++ [b.rows.map (fun r => r.pairs.map (·.2))], [], [], false⟩ := by
  obtain ⟨⟨h1, ws, hw, hf⟩, h2, h3, h4, h5⟩ := h
  have s1 : etStep flt ⟨ts, es, vs, us, [], [], g⟩ b.timeLine = .ok ⟨ts ++ b.times, es, vs, us, [], [], true⟩ := by
    unfold etStep
    simp only
    rw [if_pos (startsWith_iff.2 h1), nums_of hw, forall_mapM hf]
    rfl
  have pf : ∀ {a b c : Str}, a <+: c → b <+: c → a.length = b.length → a = b := by
    intro a b c ha hb hl
    rw [List.prefix_iff_eq_take.1 ha, List.prefix_iff_eq_take.1 hb, hl]
  have pf3 : ∀ {a b c : Str}, a <+: c → b <+: c → a.head? ≠ b.head? → a ≠ [] → b ≠ [] → False := by
    rintro a b c ⟨x, rfl⟩ ⟨y, hy⟩ hne ha hb
    cases a with
    | nil => exact ha rfl
    | cons p a =>
      cases b with
      | nil => exact hb rfl
      | cons q b => simp at hy; simp [hy.1] at hne
  have s2 : ∀ st : ET F, st.reading = true → etStep flt st b.heading = .ok st := by
    intro st hr
    unfold etStep
    simp only
    rw [if_neg, if_pos hr, if_neg, if_pos (startsWith_iff.2 h2)]
    · simp only [Bool.or_eq_true, startsWith_iff, List.isEmpty_iff, not_or]
      refine ⟨fun h => pf3 h h2 (by decide) (by decide) (by decide), fun h0 => ?_⟩
      rw [h0] at h2
      simp at h2
    · rw [startsWith_iff]; exact fun h => pf3 h h2 (by decide) (by decide) (by decide)
  have s3 : ∀ V U : List (List F), V ≠ [] → (∀ r ∈ V, r.length = n) → (∀ r ∈ U, r.length = n) → V.length = U.length → ∀ ts es,
      etStep flt ⟨ts, es, vs, us, V, U, true⟩ b.closing = .ok ⟨ts, es, vs ++ [V], us ++ [U], [], [], false⟩ := by
    intro V U hV hVn hUn hVU ts es
    have hr : ∀ W : List (List F), W ≠ [] → (∀ r ∈ W, r.length = n) → npRows W = .ok W := by
      intro W hW h
      unfold npRows
      rw [if_pos]
      intro r hr
      rw [h r hr]
      cases W with
      | nil => exact absurd rfl hW
      | cons w W => exact (h w (by simp)).symm
    have hU : U ≠ [] := by rintro rfl; exact hV (List.length_eq_zero_iff.1 hVU)
    unfold etStep
    simp only [if_true]
    rw [if_neg, if_pos, if_neg, hr V hV hVn, hr U hU hUn]
    · rfl
    · simpa using hV
    · simp only [Bool.or_eq_true, startsWith_iff, List.isEmpty_iff]
      exact h5
    · rw [startsWith_iff]
      intro h
      rcases h5 with h5 | h5
      · have := pf (h : p!"time:" <+: _) h5 rfl
        exact absurd this (by decide)
      · rw [h5] at h; simp at h
  unfold EtBlock.lines
  rw [List.foldlM_cons, s1, ex_ok_bind, List.foldlM_cons, s2 _ rfl, ex_ok_bind, List.foldlM_append, run_rows (fun r hr => (h4 r hr).1) _ rfl,
    ex_ok_bind, List.foldlM_cons]
  simp only [List.nil_append]
  rw [s3 (b.rows.map (fun r => r.pairs.map (·.1))) (b.rows.map (fun r => r.pairs.map (·.2)))]
  · rfl
  · intro h0
    have := congrArg List.length h0
    rw [List.length_map, h3, List.length_nil] at this
    omega
  · intro r hr
    obtain ⟨x, hx, rfl⟩ := List.mem_map.1 hr
    simpa using (h4 x hx).2
  · intro r hr
    obtain ⟨x, hx, rfl⟩ := List.mem_map.1 hr
    simpa using (h4 x hx).2
  · simp

private theorem run_blocks {flt : Str → Option F} {k : Nat} (hk : 0 < k) {bs : List (EtBlock F)} (h : ∀ b ∈ bs, ∃ n, b.WF flt k n)
    (ts es : List F) (vs us : List (List (List F))) (g : Bool) :
    ∃ g', (bs.flatMap EtBlock.lines).foldlM (etStep flt) ⟨ts, es, vs, us, [], [], g⟩ = .ok ⟨ts ++ bs.flatMap (·.times),
      es ++ bs.flatMap (fun b => b.rows.map (·.energy)), vs ++ bs.map (fun b => b.rows.map (fun r => r.pairs.map (·.1))),
      us ++ bs.map (fun b => b.rows.map (fun r => r.pairs.map (·.2))), [], [], g'⟩ := by
  induction bs generalizing ts es vs us g with
  | nil => exact ⟨g, by simp [ex_pure]⟩
  | cons b bs ih =>
    obtain ⟨g', ih⟩ := ih (fun b hb => h b (by simp [hb])) (ts ++ b.times) (es ++ b.rows.map (·.energy))
      (vs ++ [b.rows.map (fun r => r.pairs.map (·.1))]) (us ++ [b.rows.map (fun r => r.pairs.map (·.2))]) false
    refine ⟨g', ?_⟩
    obtain ⟨n, hn⟩ := h b (by simp)
    rw [List.flatMap_cons, List.foldlM_append, run_block hk hn, ex_ok_bind, ih]
    simp

private theorem foldl_zip_get (L : List (List (List F))) (a : List (List F)) (k : Nat) (ha : a.length = k) (hL : ∀ x ∈ L, x.length = k) :
    (L.foldl (fun acc x => List.zipWith (· ++ ·) acc x) a).length = k ∧
    ∀ i < k, (L.foldl (fun acc x => List.zipWith (· ++ ·) acc x) a)[i]? =
      some ((a :: L).flatMap (fun x => x[i]?.getD [])) := by
  induction L generalizing a with
  | nil =>
    refine ⟨ha, ?_⟩
    intro i hi
    have : i < a.length := by omega
    simp [List.getElem?_eq_getElem this]
  | cons x L ih =>
    have hx := hL x (by simp)
    have hz : (List.zipWith (· ++ ·) a x).length = k := by simp [ha, hx]
    obtain ⟨h1, h2⟩ := ih (List.zipWith (· ++ ·) a x) hz (fun y hy => hL y (by simp [hy]))
    refine ⟨h1, ?_⟩
    intro i hi
    rw [List.foldl_cons, h2 i hi]
    have h3 : i < a.length := by omega
    have h4 : i < x.length := by omega
    simp [List.getElem?_zipWith, List.getElem?_eq_getElem h3, List.getElem?_eq_getElem h4]

/-- `r` is sorted and consists of the members of `l`, each once. -/
def SortedOnce [LinearOrder F] (l r : List F) : Prop := r.Pairwise (· < ·) ∧ ∀ x, x ∈ r ↔ x ∈ l

private theorem sortedSet_spec [LinearOrder F] (l : List F) : SortedOnce l (sortedSet l) := by
  unfold sortedSet
  constructor
  · have hs : (l.dedup.insertionSort (· ≤ ·)).Pairwise (· ≤ ·) := List.pairwise_insertionSort _ _
    have hn : (l.dedup.insertionSort (· ≤ ·)).Nodup := (List.perm_insertionSort _ _).nodup_iff.2 (List.nodup_dedup l)
    exact (hs.and hn).imp (fun h => lt_of_le_of_ne h.1 h.2)
  · intro x
    rw [List.mem_insertionSort, List.mem_dedup]

/-- Blocks with the same number of rows (at least one), each with rows of equal length: row `i` of the result consists of the values in
    row `i` of all blocks one after the other, errors likewise; times and energies are sorted and without repetition. -/
theorem C141_blocks [LinearOrder F] {flt : Str → Option F} {k : Nat} (hk : 0 < k) {bs : List (EtBlock F)} (hne : bs ≠ [])
    (h : ∀ b ∈ bs, ∃ n, b.WF flt k n) :
    ∃ ts es V U, processEtUserbin flt (bs.flatMap EtBlock.lines) = .ok (ts, es, V, U) ∧
      SortedOnce (bs.flatMap (·.times)) ts ∧ SortedOnce (bs.flatMap (fun b => b.rows.map (·.energy))) es ∧
      V.length = k ∧ U.length = k ∧ ∀ i < k,
        V[i]? = some (bs.flatMap (fun b => (b.rows[i]?.map (fun r => r.pairs.map (·.1))).getD [])) ∧
        U[i]? = some (bs.flatMap (fun b => (b.rows[i]?.map (fun r => r.pairs.map (·.2))).getD [])) := by
  obtain ⟨g', hr⟩ := run_blocks hk h [] [] [] [] false
  obtain ⟨b, bs', rfl⟩ := List.exists_cons_of_ne_nil hne
  have hstk : ∀ f : EtRow F → List F, ∃ V, hstack ((b :: bs').map (fun b => b.rows.map f)) = .ok V ∧ V.length = k ∧
      ∀ i < k, V[i]? = some ((b :: bs').flatMap (fun b => (b.rows[i]?.map f).getD [])) := by
    intro f
    have hlen : ∀ c ∈ b :: bs', (c.rows.map f).length = k := by
      intro c hc
      obtain ⟨n, hn⟩ := h c hc
      rw [List.length_map]; exact hn.2.2.1
    have hz := foldl_zip_get (bs'.map (fun b => b.rows.map f)) (b.rows.map f) k (hlen b (by simp)) (by
      intro x hx
      obtain ⟨c, hc, rfl⟩ := List.mem_map.1 hx
      exact hlen c (by simp [hc]))
    refine ⟨_, ?_, hz.1, ?_⟩
    · rw [List.map_cons]
      simp only [hstack]
      rw [if_pos]
      intro x hx
      obtain ⟨c, hc, rfl⟩ := List.mem_map.1 hx
      rw [hlen c (by simp [hc]), hlen b (by simp)]
    · intro i hi
      rw [hz.2 i hi]
      simp only [List.flatMap_cons, List.flatMap_map, List.getElem?_map]
  obtain ⟨V, v1, v2, v3⟩ := hstk (fun r => r.pairs.map (·.1))
  obtain ⟨U, u1, u2, u3⟩ := hstk (fun r => r.pairs.map (·.2))
  refine ⟨_, _, V, U, ?_, sortedSet_spec _, sortedSet_spec _, v2, u2, fun i hi => ⟨v3 i hi, u3 i hi⟩⟩
  unfold processEtUserbin
  rw [hr]
  simp only [ex_ok_bind, List.nil_append, v1, u1, ex_pure]

/-- Lines behind the last block change nothing unless they begin another one. -/
theorem C141_gap [LinearOrder F] {flt : Str → Option F} {k : Nat} (hk : 0 < k) {bs : List (EtBlock F)}
    (h : ∀ b ∈ bs, ∃ n, b.WF flt k n) {gap : List Str} (hg : ∀ l ∈ gap, ¬ p!"time:" <+: strip l) :
    processEtUserbin flt (bs.flatMap EtBlock.lines ++ gap) = processEtUserbin flt (bs.flatMap EtBlock.lines) := by
  have hgap : ∀ st : ET F, st.reading = false → gap.foldlM (etStep flt) st = .ok st := by
    intro st hr
    induction gap with
    | nil => rfl
    | cons l gap ih =>
      have hs : etStep flt st l = .ok st := by
        unfold etStep
        simp only
        rw [if_neg (by rw [startsWith_iff]; exact hg l (by simp)), if_neg (by simp [hr])]
      rw [List.foldlM_cons, hs, ex_ok_bind, ih (fun l hl => hg l (by simp [hl]))]
  obtain ⟨g', hr⟩ := run_blocks hk h [] [] [] [] false
  have hf : g' = false := by
    rcases List.eq_nil_or_concat bs with rfl | ⟨bs', b, rfl⟩
    · simpa [ex_pure] using hr.symm
    · obtain ⟨g2, hr2⟩ := run_blocks hk (fun b hb => h b (by simp [hb])) (bs := bs') [] [] [] [] false
      obtain ⟨n, hn⟩ := h b (by simp)
      rw [List.concat_eq_append, List.flatMap_append, List.foldlM_append, hr2, ex_ok_bind, List.flatMap_singleton, run_block hk hn] at hr
      simp only [Except.ok.injEq, ET.mk.injEq] at hr
      exact hr.2.2.2.2.2.2.symm
  unfold processEtUserbin
  rw [List.foldlM_append, hr, ex_ok_bind, hgap _ hf]

/-- Rows that differ in number from block to block are a ValueError. -/
theorem C141_rows_differ [LinearOrder F] {flt : Str → Option F} {k k' n n' : Nat} (hk : 0 < k) (hk' : 0 < k') (hne : k ≠ k') {b c : EtBlock F}
    (hb : b.WF flt k n) (hc : c.WF flt k' n') : processEtUserbin flt (b.lines ++ c.lines) = .error .ValueError := by
  unfold processEtUserbin
  rw [List.foldlM_append, run_block hk hb, ex_ok_bind, run_block hk' hc]
  simp only [ex_ok_bind, List.nil_append, List.singleton_append, hstack]
  rw [if_neg]
  · rfl
  · intro h
    have := h _ (List.mem_singleton.2 rfl)
    rw [List.length_map, List.length_map, hb.2.2.1, hc.2.2.1] at this
    exact hne this.symm

/-- Without any results there is nothing to stack: ValueError. -/
theorem C141_empty [LinearOrder F] (flt : Str → Option F) {lines : List Str} (h : ∀ l ∈ lines, ¬ p!"time:" <+: strip l) :
    processEtUserbin flt lines = .error .ValueError := by
  have : lines.foldlM (etStep flt) ⟨[], [], [], [], [], [], false⟩ = .ok ⟨[], [], [], [], [], [], false⟩ := by
    induction lines with
    | nil => rfl
    | cons l lines ih =>
      have hs : etStep flt ⟨[], [], [], [], [], [], false⟩ l = .ok ⟨[], [], [], [], [], [], false⟩ := by
        unfold etStep
        simp only
        rw [if_neg (by rw [startsWith_iff]; exact h l (by simp))]
        rfl
      rw [List.foldlM_cons, hs, ex_ok_bind, ih (fun l hl => h l (by simp [hl]))]
  unfold processEtUserbin
  rw [this]
  rfl

example : processEtUserbin pyNat [p!" time:  1   2 ", p!" energy ", p!" 5 10 20 30 40", p!" 6 50 60 70 80", p!" total 1 1",
    p!" time: 3", p!"  energy", p!" 5 11 12 ", p!" 6 13 14", p!" total 1 1"] =
    .ok ([1, 2, 3], [5, 6], [[10, 30, 11], [50, 70, 13]], [[20, 40, 12], [60, 80, 14]]) := by decide +kernel

/-! ### For other files -/

theorem isNums_findNums {s : Str} {ws : List Str} (h : IsNums s ws) : findNums s = ws := nums_of h
theorem floats_mapM {flt : Str → Option F} {ws : List Str} {xs : List F} (h : List.Forall₂ (fun s x => flt s = some x) ws xs) :
    ws.mapM (pyFloat flt) = .ok xs := forall_mapM h
theorem sortedOnce_sortedSet [LinearOrder F] (l : List F) : SortedOnce l (sortedSet l) := sortedSet_spec l

end Props
