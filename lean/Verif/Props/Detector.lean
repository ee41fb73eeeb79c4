/- Property C204 of mcnp_output_reader.py: point detectors with time bins and no energy bins. -/
import Verif.Props.McnpOutput8

set_option linter.unusedSectionVars false
set_option linter.unusedSimpArgs false

namespace Props
open Py NeutUtilities McnpOutput
variable {F : Type}

private theorem find_append {text : Str} {k : Nat} (hk : text.length = k) {a b : List Str} {x : Str} (ha : ∀ y ∈ a, ¬ text <+: y)
    (hx : text <+: x) : findLine text (a ++ x :: b) k = .ok a.length := by
  rw [findLine_prefix hk]
  refine ⟨⟨x, by simp, hx⟩, ?_⟩
  rintro j hj ⟨y, hy, hp⟩
  rw [List.getElem?_append_left hj] at hy
  exact ha y (List.mem_of_getElem? hy) hp

private theorem drop_append (pre : List Str) (x : Str) (l : List Str) : (pre ++ x :: l).drop (pre.length + 1) = l := by
  rw [List.drop_append, List.drop_eq_nil_of_le (by omega), show pre.length + 1 - pre.length = 1 by omega]
  rfl

/-- A block of a tally with time bins only: the times, a line with a value and an error for each of them, and a blank line. The last
    time heading may be the word total, so there can be one value more than times. -/
structure DetBlock (F : Type) where
  timeLine : Str
  times : List F
  line : Str
  first : F × F
  others : List (F × F)
  closing : Str

/-- All pairs of value and error of a block. -/
def DetBlock.pairs (b : DetBlock F) : List (F × F) := b.first :: b.others

def DetBlock.WF (flt : Str → Option F) (b : DetBlock F) : Prop :=
  (p!"time:" <+: strip b.timeLine ∧ ∃ ws, IsNums (strip b.timeLine) ws ∧ List.Forall₂ (fun s x => flt s = some x) ws b.times) ∧
  (¬ p!"time:" <+: strip b.line ∧ ¬ p!"total" <+: strip b.line ∧ ¬ p!"energy" <+: strip b.line ∧ strip b.line ≠ [] ∧
    ∃ ws, IsNums (strip b.line) ws ∧ List.Forall₂ (fun s x => flt s = some x) ws (b.pairs.flatMap (fun p => [p.1, p.2]))) ∧
  strip b.closing = []

def DetBlock.lines (b : DetBlock F) : List Str := [b.timeLine, b.line, b.closing]

private theorem evens_shift (x : F × F) (ps : List (F × F)) : evens (x.2 :: ps.flatMap (fun p => [p.1, p.2])) = (x :: ps).map (·.2) := by
  induction ps generalizing x with
  | nil => rfl
  | cons p ps ih =>
    simp only [List.flatMap_cons, List.cons_append, List.nil_append, evens]
    rw [ih p]
    rfl

private theorem evens_all (ps : List (F × F)) : evens (ps.flatMap (fun p => [p.1, p.2])) = ps.map (·.1) := by
  induction ps with
  | nil => rfl
  | cons p ps ih => simp only [List.flatMap_cons, List.cons_append, List.nil_append, evens, List.map_cons, ih]

private theorem block_run {flt : Str → Option F} {b : DetBlock F} (h : b.WF flt) (ts es : List F) (vs us : List (List (List F))) (g : Bool) :
    b.lines.foldlM (etStep flt) ⟨ts, es, vs, us, [], [], g⟩ = .ok ⟨ts ++ b.times, es ++ [b.first.1], vs ++ [[b.pairs.map (·.2)]],
      us ++ [[b.others.map (·.1)]], [], [], false⟩ := by
  obtain ⟨⟨h1, ws, hw, hf⟩, ⟨h2, h3, h4, h5, vs', hv, hp⟩, h6⟩ := h
  have s1 : etStep flt ⟨ts, es, vs, us, [], [], g⟩ b.timeLine = .ok ⟨ts ++ b.times, es, vs, us, [], [], true⟩ := by
    unfold etStep
    simp only
    rw [if_pos (startsWith_iff.2 h1), isNums_findNums hw, floats_mapM hf]
    rfl
  have s2 : etStep flt ⟨ts ++ b.times, es, vs, us, [], [], true⟩ b.line =
      .ok ⟨ts ++ b.times, es ++ [b.first.1], vs, us, [b.pairs.map (·.2)], [b.others.map (·.1)], true⟩ := by
    unfold etStep
    simp only [if_true]
    rw [if_neg (by rw [startsWith_iff]; exact h2), if_neg, if_neg (by rw [startsWith_iff]; exact h4), isNums_findNums hv]
    · rw [show b.pairs.flatMap (fun p => [p.1, p.2]) = b.first.1 :: b.first.2 :: b.others.flatMap (fun p => [p.1, p.2]) from rfl] at hp
      cases hp with
      | cons hw hp =>
        rename_i w ws
        have he : pyFloat flt w = .ok b.first.1 := by unfold pyFloat; rw [hw]; rfl
        simp only [he, floats_mapM hp, ex_ok_bind, ex_pure, evens_shift, odds, List.drop_succ_cons, List.drop_zero, evens_all]
        rfl
    · simp only [Bool.or_eq_true, startsWith_iff, List.isEmpty_iff, not_or]
      exact ⟨h3, h5⟩
  have s3 : etStep flt ⟨ts ++ b.times, es ++ [b.first.1], vs, us, [b.pairs.map (·.2)], [b.others.map (·.1)], true⟩ b.closing =
      .ok ⟨ts ++ b.times, es ++ [b.first.1], vs ++ [[b.pairs.map (·.2)]], us ++ [[b.others.map (·.1)]], [], [], false⟩ := by
    unfold etStep
    have hr : ∀ r : List F, npRows [r] = .ok [r] := fun r => by unfold npRows; rw [if_pos (by simp)]
    simp only [if_true, h6]
    rw [if_neg (by decide), if_pos (by decide), if_neg (by simp), hr, hr]
    rfl
  unfold DetBlock.lines
  rw [List.foldlM_cons, s1, ex_ok_bind, List.foldlM_cons, s2, ex_ok_bind, List.foldlM_cons, s3]
  rfl

private theorem blocks_run {flt : Str → Option F} {bs : List (DetBlock F)} (h : ∀ b ∈ bs, b.WF flt) (ts es : List F)
    (vs us : List (List (List F))) :
    (bs.flatMap DetBlock.lines).foldlM (etStep flt) ⟨ts, es, vs, us, [], [], false⟩ = .ok ⟨ts ++ bs.flatMap (·.times),
      es ++ bs.map (·.first.1), vs ++ bs.map (fun b => [b.pairs.map (·.2)]), us ++ bs.map (fun b => [b.others.map (·.1)]), [], [], false⟩ := by
  induction bs generalizing ts es vs us with
  | nil => simp [ex_pure]
  | cons b bs ih =>
    rw [List.flatMap_cons, List.foldlM_append, block_run (h b (by simp)), ex_ok_bind, ih (fun b hb => h b (by simp [hb]))]
    simp

private theorem hstack_single {ι : Type} (f : ι → List F) (bs : List ι) (hne : bs ≠ []) : hstack (bs.map (fun b => [f b])) = .ok [bs.flatMap f] := by
  obtain ⟨b, bs, rfl⟩ := List.exists_cons_of_ne_nil hne
  have hz : ∀ (bs : List ι) (a : List F), (bs.map (fun b => [f b])).foldl (fun acc x => List.zipWith (· ++ ·) acc x) [a] = [a ++ bs.flatMap f] := by
    intro bs
    induction bs with
    | nil => simp
    | cons c bs ih => intro a; simp [ih]
  simp only [List.map_cons, hstack]
  rw [if_pos (by simp), hz]
  rfl

private theorem gap_run {flt : Str → Option F} {gap : List Str} (hg : ∀ l ∈ gap, ¬ p!"time:" <+: strip l) (st : ET F) (hr : st.reading = false) :
    gap.foldlM (etStep flt) st = .ok st := by
  induction gap with
  | nil => rfl
  | cons l gap ih =>
    have hs : etStep flt st l = .ok st := by
      unfold etStep
      simp only
      rw [if_neg (by rw [startsWith_iff]; exact hg l (by simp)), if_neg (by simp [hr])]
    rw [List.foldlM_cons, hs, ex_ok_bind, ih (fun l hl => hg l (by simp [hl]))]

private theorem strip_infix {s l : Str} (h : s <+: strip l) : s <:+: l := by
  obtain ⟨a, b, h0, _, _⟩ := strip_decomp l
  obtain ⟨r, hr⟩ := h
  refine ⟨a, r ++ b, ?_⟩
  conv_rhs => rw [h0, ← hr]
  simp

private theorem detector_read [LinearOrder F] {flt : Str → Option F} {t t' : Tally F} {bs : List (DetBlock F)}
    (hne : bs ≠ []) (hb : ∀ b ∈ bs, b.WF flt) {pre gap post : List Str} {det nxt : Str}
    (hg : ∀ l ∈ gap, ¬ p!"time:" <+: strip l) (hp : ∀ l ∈ pre, ¬ p!" detector located" <+: l) (hd : p!" detector located" <+: det)
    (hn : ∀ l ∈ bs.flatMap DetBlock.lines ++ gap, ¬ p!" det" <+: l) (hx : p!" det" <+: nxt)
    (h : readType5 flt t (pre ++ det :: (bs.flatMap DetBlock.lines ++ gap ++ nxt :: post)) = .ok t') :
    t'.times = some (.nums (sortedSet (bs.flatMap (·.times)))) ∧ t'.eng = some (sortedSet (bs.map (·.first.1))) ∧
      t'.result = .mat [bs.flatMap (fun b => b.pairs.map (·.2))] ∧ t'.err = .mat [bs.flatMap (fun b => b.others.map (·.1))] := by
  have hr : processEtUserbin flt (bs.flatMap DetBlock.lines ++ gap) = .ok (sortedSet (bs.flatMap (·.times)), sortedSet (bs.map (·.first.1)),
      [bs.flatMap (fun b => b.pairs.map (·.2))], [bs.flatMap (fun b => b.others.map (·.1))]) := by
    unfold processEtUserbin
    rw [List.foldlM_append, blocks_run hb, ex_ok_bind, gap_run hg _ rfl, ex_ok_bind]
    simp only [List.nil_append]
    rw [hstack_single (fun b : DetBlock F => b.pairs.map (·.2)) bs hne, ex_ok_bind, hstack_single (fun b : DetBlock F => b.others.map (·.1)) bs hne]
    rfl
  unfold readType5 at h
  rw [find_append (k := 17) rfl hp hd, ex_ok_bind] at h
  simp only [ex_bind_ok] at h
  obtain ⟨l, _, p, _, t1, h1, h2⟩ := h
  have hgen : t'.result = t1.result ∧ t'.err = t1.err ∧ t'.eng = t1.eng ∧ t'.times = t1.times := by
    unfold type5General at h2
    simp only [ex_bind_ok, ex_pure, Except.ok.injEq] at h2
    obtain ⟨_, _, _, _, _, _, _, _, _, _, _, _, _, _, _, _, _, _, _, _, _, _, _, _, _, _, rfl⟩ := h2
    exact ⟨rfl, rfl, rfl, rfl⟩
  obtain ⟨e1, e2, e3, e4⟩ := hgen
  rw [e1, e2, e3, e4]
  obtain ⟨b, bs', rfl⟩ := List.exists_cons_of_ne_nil hne
  have hw := hb b (by simp)
  have hat : at' (pre ++ det :: ((b :: bs').flatMap DetBlock.lines ++ gap ++ nxt :: post)) (pre.length + 1) = .ok b.timeLine := by
    unfold at'
    rw [List.getElem?_append_right (by omega), show pre.length + 1 - pre.length = 1 by omega]
    rfl
  have htime : hasSub p!"time" b.timeLine = true := by
    refine hasSub_iff.2 (List.IsInfix.trans ?_ (strip_infix hw.1.1))
    exact ⟨[], p!":", rfl⟩
  have hne1 : b.timeLine ≠ p!"      energy   " := by
    intro he
    have := hw.1.1
    rw [he] at this
    revert this; decide
  have hfind : findLine p!" det" ((pre ++ det :: ((b :: bs').flatMap DetBlock.lines ++ gap ++ nxt :: post)).drop (pre.length + 1)) 4 =
      .ok ((b :: bs').flatMap DetBlock.lines ++ gap).length := by
    rw [drop_append]
    exact find_append rfl hn hx
  have hsl : slice (pre ++ det :: ((b :: bs').flatMap DetBlock.lines ++ gap ++ nxt :: post)) (pre.length + 1)
      (pre.length + 1 + ((b :: bs').flatMap DetBlock.lines ++ gap).length) = (b :: bs').flatMap DetBlock.lines ++ gap := by
    unfold slice
    rw [List.drop_take, drop_append, show pre.length + 1 + ((b :: bs').flatMap DetBlock.lines ++ gap).length - (pre.length + 1) =
      ((b :: bs').flatMap DetBlock.lines ++ gap).length by omega, List.take_append_of_le_length (le_refl _), List.take_length]
  unfold type5Result at h1
  rw [hat, ex_ok_bind, if_neg hne1, if_pos htime, hfind, ex_ok_bind, hsl, hr] at h1
  simp only [ex_ok_bind, ex_pure, Except.ok.injEq] at h1
  subst h1
  exact ⟨rfl, rfl, rfl, rfl⟩

/-- C204 (violated): for every point detector with time bins and no energy bins, the entries of the result are the relative errors, and
    the entries of the error are the values without the first one of every block. -/
theorem C204_time_violated [LinearOrder F] {flt : Str → Option F} {t t' : Tally F} {bs : List (DetBlock F)}
    (hne : bs ≠ []) (hb : ∀ b ∈ bs, b.WF flt) {pre gap post : List Str} {det nxt : Str}
    (hg : ∀ l ∈ gap, ¬ p!"time:" <+: strip l) (hp : ∀ l ∈ pre, ¬ p!" detector located" <+: l) (hd : p!" detector located" <+: det)
    (hn : ∀ l ∈ bs.flatMap DetBlock.lines ++ gap, ¬ p!" det" <+: l) (hx : p!" det" <+: nxt)
    (h : readType5 flt t (pre ++ det :: (bs.flatMap DetBlock.lines ++ gap ++ nxt :: post)) = .ok t') :
    t'.result = .mat [(bs.flatMap DetBlock.pairs).map (·.2)] ∧ t'.err = .mat [(bs.flatMap (·.others)).map (·.1)] := by
  obtain ⟨_, _, h1, h2⟩ := detector_read hne hb hg hp hd hn hx h
  rw [h1, h2, List.map_flatMap, List.map_flatMap]
  exact ⟨rfl, rfl⟩

/-- C204 (violated): the first values of the blocks are returned as energies, although there are no energy bins. -/
theorem C204_energies_violated [LinearOrder F] {flt : Str → Option F} {t t' : Tally F} {bs : List (DetBlock F)}
    (hne : bs ≠ []) (hb : ∀ b ∈ bs, b.WF flt) {pre gap post : List Str} {det nxt : Str}
    (hg : ∀ l ∈ gap, ¬ p!"time:" <+: strip l) (hp : ∀ l ∈ pre, ¬ p!" detector located" <+: l) (hd : p!" detector located" <+: det)
    (hn : ∀ l ∈ bs.flatMap DetBlock.lines ++ gap, ¬ p!" det" <+: l) (hx : p!" det" <+: nxt)
    (h : readType5 flt t (pre ++ det :: (bs.flatMap DetBlock.lines ++ gap ++ nxt :: post)) = .ok t') :
    ∃ es, t'.eng = some es ∧ es ≠ [] ∧ SortedOnce (bs.map (·.first.1)) es := by
  obtain ⟨_, h1, _, _⟩ := detector_read hne hb hg hp hd hn hx h
  refine ⟨_, h1, ?_, sortedOnce_sortedSet _⟩
  intro h0
  obtain ⟨b, bs', rfl⟩ := List.exists_cons_of_ne_nil hne
  have := ((sortedOnce_sortedSet ((b :: bs').map (·.first.1))).2 b.first.1).2 (by simp)
  rw [h0] at this
  simp at this

/-- C204 (part that holds): the times are those of the headings, in ascending order and each once. Missing: results and errors. -/
theorem C204_times_partial [LinearOrder F] {flt : Str → Option F} {t t' : Tally F} {bs : List (DetBlock F)}
    (hne : bs ≠ []) (hb : ∀ b ∈ bs, b.WF flt) {pre gap post : List Str} {det nxt : Str}
    (hg : ∀ l ∈ gap, ¬ p!"time:" <+: strip l) (hp : ∀ l ∈ pre, ¬ p!" detector located" <+: l) (hd : p!" detector located" <+: det)
    (hn : ∀ l ∈ bs.flatMap DetBlock.lines ++ gap, ¬ p!" det" <+: l) (hx : p!" det" <+: nxt)
    (h : readType5 flt t (pre ++ det :: (bs.flatMap DetBlock.lines ++ gap ++ nxt :: post)) = .ok t') :
    ∃ ts, t'.times = some (.nums ts) ∧ SortedOnce (bs.flatMap (·.times)) ts :=
  ⟨_, (detector_read hne hb hg hp hd hn hx h).1, sortedOnce_sortedSet _⟩

/-- Two times with values 10 and 11 and errors 2 and 3, and the total: the result holds the errors. -/
example : (type5Result pyNat (⟨5, '5', [], .inr 0, .items [], .items [], none, none, none, none, [], [], [], [], none, none, none, none, none, []⟩ : Tally Nat)
    [p!" detector located", p!" time:  7 8", p!" 10 2 11 3", p!" ", p!" time: total", p!" 21 4", p!" ", p!" detector located"] 0).map
    (fun t => (t.times, t.eng, t.result, t.err)) =
    .ok (some (.nums [7, 8]), some [10, 21], .mat [[2, 3, 4]], .mat [[11]]) := by decide +kernel
example : (⟨p!" time:  7 8", [7, 8], p!" 10 2 11 3", (10, 2), [(11, 3)], p!" "⟩ : DetBlock Nat).WF pyNat := by
  have nc : ∀ c : Char, c ∈ p!"10 2378" → c ≠ ' ' → NumChar c := by
    intro c hc hne
    simp only [List.mem_cons, List.not_mem_nil, or_false] at hc
    rcases hc with rfl | rfl | rfl | rfl | rfl | rfl | rfl <;> first | exact absurd rfl hne | exact .inl (by decide)
  have sp : ¬ NumChar ' ' := by unfold NumChar; decide
  have one : ∀ (p w r : Str) (ws : List Str), (∀ c ∈ p, ¬ NumChar c) → w ≠ [] → (∀ c ∈ w, NumChar c) → (∀ c ∈ r.head?, ¬ NumChar c) → IsNums r ws →
      IsNums (p ++ w ++ r) (w :: ws) := fun _ _ _ _ a b c d e => .run a b c d e
  have nil : IsNums [] [] := .none (by simp)
  refine ⟨⟨by decide +kernel, [p!"7", p!"8"], ?_, by decide +kernel⟩, ⟨by decide +kernel, by decide +kernel, by decide +kernel, by decide +kernel,
    [p!"10", p!"2", p!"11", p!"3"], ?_, by decide +kernel⟩, by decide +kernel⟩
  · refine one p!"time:  " p!"7" p!" 8" _ (by unfold NumChar; decide) (by decide) (by unfold NumChar; decide) (by unfold NumChar; decide) ?_
    exact one p!" " p!"8" [] _ (by unfold NumChar; decide) (by decide) (by unfold NumChar; decide) (by simp) nil
  · refine one [] p!"10" p!" 2 11 3" _ (by simp) (by decide) (by unfold NumChar; decide) (by unfold NumChar; decide) ?_
    refine one p!" " p!"2" p!" 11 3" _ (by unfold NumChar; decide) (by decide) (by unfold NumChar; decide) (by unfold NumChar; decide) ?_
    refine one p!" " p!"11" p!" 3" _ (by unfold NumChar; decide) (by decide) (by unfold NumChar; decide) (by unfold NumChar; decide) ?_
    exact one p!" " p!"3" [] _ (by unfold NumChar; decide) (by decide) (by unfold NumChar; decide) (by simp) nil

end Props
