/-
C263 for whole output files: `read_output_file` on a file with its tallies in another order.
-/
import Verif.Props.TallyOrder

set_option linter.unusedSectionVars false

namespace Props
open Py NeutUtilities McnpOutput
variable {F : Type}

private theorem findLine_mono {t : Str} {n : Nat} {a : List Str} (b : List Str) {i j : Nat} (h : findLineFrom t n i a = .ok j) :
    findLineFrom t n i (a ++ b) = .ok j ∧ j < i + a.length := by
  induction a generalizing i with
  | nil => cases h
  | cons l a ih =>
    rw [findLineFrom] at h
    rw [List.cons_append, findLineFrom]
    by_cases hl : l.take n = t
    · rw [if_pos hl] at h ⊢
      cases h
      exact ⟨rfl, by simp⟩
    · rw [if_neg hl] at h ⊢
      obtain ⟨h1, h2⟩ := ih h
      exact ⟨h1, by rw [List.length_cons]; omega⟩

private theorem findLine_some {t : Str} {n : Nat} {a : List Str} {l : Str} (hl : l ∈ a) (h : l.take n = t) (i : Nat) :
    ∃ j, findLineFrom t n i a = .ok j := by
  induction a generalizing i with
  | nil => simp at hl
  | cons x a ih =>
    rw [findLineFrom]
    by_cases hx : x.take n = t
    · exact ⟨i, by rw [if_pos hx]⟩
    · rw [if_neg hx]
      rcases List.mem_cons.1 hl with rfl | hl
      · exact absurd h hx
      · exact ih hl (i + 1)

/-- What an output file needs besides its tallies: more than a hundred lines before the tallies, among them the end of print table 60 and, behind the
    last print table, the end of table 101; no print table among the tallies and no second table 101 behind them. -/
structure Surrounding (before after : List Str) (ss : List Printed) : Prop where
  long : 101 ≤ before.length
  weight : ∃ l ∈ before, p!"    minimum source weight" <+: l
  stars : ∃ a s b, before = a ++ s :: b ∧ p!" *******" <+: s ∧ ∀ l ∈ s :: b, ¬ p!"print table" <:+: l
  tables : ∀ s ∈ ss, ∀ l ∈ s.hd :: s.body, ¬ p!"print table" <:+: l
  last : ∀ l ∈ after, p!"print table" <:+: l → (splitOn ' ' l).getLast? ≠ some p!"101"
  word : ∀ s ∈ ss, (stringCleanAndSplit s.hd)[1]? = some s.tnum
  others : ∀ l ∈ before ++ after, p!"1tally     " <+: l → ∃ s ∈ ss, (stringCleanAndSplit l)[1]? = some s.tnum

private theorem take_prefix {l p : Str} {n : Nat} (hn : p.length = n) : l.take n = p ↔ p <+: l := by
  subst hn
  exact ⟨fun h => h ▸ List.take_prefix _ _, fun h => (List.prefix_iff_eq_take.1 h).symm⟩

private def tableStep (d : Dict Str Nat) (e : Str × Nat) : Dict Str Nat :=
  if hasSub p!"print table" e.1 then
    let key := (splitOn ' ' e.1).getLastD []
    if key = p!"160" ∨ key = p!"161" ∨ key.length > 3 then d else d.set key e.2
  else d

private theorem tables_skip {m : List Str} (h : ∀ l ∈ m, ¬ p!"print table" <:+: l) (n : Nat) (d : Dict Str Nat) :
    (m.zipIdx n).foldl tableStep d = d := by
  induction m generalizing n d with
  | nil => rfl
  | cons l m ih =>
    rw [List.zipIdx_cons, List.foldl_cons]
    have : tableStep d (l, n) = d := by
      unfold tableStep
      rw [if_neg (by rw [hasSub_iff]; exact h l (by simp))]
    rw [this]
    exact ih (fun x hx => h x (by simp [hx])) _ _

private theorem tables_append (a m b : List Str) (h : ∀ l ∈ m, ¬ p!"print table" <:+: l) :
    getTableDict (a ++ (m ++ b)) = (b.zipIdx (a.length + m.length)).foldl tableStep ((a.zipIdx).foldl tableStep []) := by
  show ((a ++ (m ++ b)).zipIdx).foldl tableStep [] = _
  rw [List.zipIdx_append, List.zipIdx_append, List.foldl_append, List.foldl_append, tables_skip h]
  simp

private theorem tableStep_get (d : Dict Str Nat) (l : Str) (n : Nat) (k : Str) :
    (tableStep d (l, n)).get k = d.get k ∨ (p!"print table" <:+: l ∧ k = (splitOn ' ' l).getLastD [] ∧ (tableStep d (l, n)).get k = some n) := by
  unfold tableStep
  by_cases h1 : hasSub p!"print table" l = true
  · rw [if_pos h1]
    dsimp only
    by_cases h2 : (splitOn ' ' l).getLastD [] = p!"160" ∨ (splitOn ' ' l).getLastD [] = p!"161" ∨ ((splitOn ' ' l).getLastD []).length > 3
    · rw [if_pos h2]; exact .inl rfl
    · rw [if_neg h2]
      by_cases hk : k = (splitOn ' ' l).getLastD []
      · exact .inr ⟨hasSub_iff.1 h1, hk, by rw [hk, Dict.get_set_self]⟩
      · exact .inl (by rw [Dict.get_set_ne _ _ hk])
  · rw [if_neg h1]; exact .inl rfl

private theorem tables_other {m : List Str} {k : Str} (h : ∀ l ∈ m, p!"print table" <:+: l → k ≠ (splitOn ' ' l).getLastD []) (n : Nat)
    (d : Dict Str Nat) : ((m.zipIdx n).foldl tableStep d).get k = d.get k := by
  induction m generalizing n d with
  | nil => rfl
  | cons l m ih =>
    rw [List.zipIdx_cons, List.foldl_cons, ih (fun x hx => h x (by simp [hx]))]
    rcases tableStep_get d l n k with e | ⟨h1, h2, _⟩
    · exact e
    · exact absurd h2 (h l (by simp) h1)

private theorem tables_below {a : List Str} {n : Nat} {k : Str} {i : Nat} {d : Dict Str Nat} (hd : ∀ i, d.get k = some i → i < n + a.length)
    (h : ((a.zipIdx n).foldl tableStep d).get k = some i) : i < n + a.length := by
  induction a generalizing n d with
  | nil => exact hd i h
  | cons l a ih =>
    rw [List.zipIdx_cons, List.foldl_cons] at h
    have := ih (n := n + 1) (d := tableStep d (l, n)) (fun i hi => by
      rcases tableStep_get d l n k with e | ⟨_, _, e⟩
      · rw [e] at hi
        have := hd i hi; rw [List.length_cons] at this; omega
      · rw [e] at hi
        cases hi; omega) h
    rw [List.length_cons]; omega

private theorem printed_length {ss ss' : List Printed} (hp : ss.Perm ss') : (printedLines ss).length = (printedLines ss').length :=
  (hp.flatMap_right _).length_eq

private theorem last_key {l : Str} (h : (splitOn ' ' l).getLast? ≠ some p!"101") : p!"101" ≠ (splitOn ' ' l).getLastD [] := by
  intro e
  apply h
  rw [List.getLastD_eq_getLast?] at e
  cases hg : (splitOn ' ' l).getLast? with
  | none => rw [hg] at e; cases e
  | some w => rw [hg] at e; rw [e]; rfl

private theorem slice_same (a : List Str) (b b' : List Str) (i : Nat) {j : Nat} (h : j ≤ a.length) : slice (a ++ b) i j = slice (a ++ b') i j := by
  unfold slice
  rw [List.take_append_of_le_length h, List.take_append_of_le_length h]

private theorem table60_same {a : List Str} (h : ∃ l ∈ a, p!"    minimum source weight" <+: l) (b b' : List Str) (i : Nat) :
    readTable60 (a ++ b) i = readTable60 (a ++ b') i := by
  obtain ⟨l, hl, hp⟩ := h
  obtain ⟨j, hj⟩ := findLine_some hl ((take_prefix (n := 25) rfl).2 hp) 0
  obtain ⟨h1, h2⟩ := findLine_mono b hj
  obtain ⟨h1', _⟩ := findLine_mono b' hj
  unfold readTable60 findLine
  rw [h1, h1', ex_ok_bind, ex_ok_bind, slice_same a b b' i (by omega)]

private theorem table101_same {a a' : List Str} {s : Str} (hs : p!" *******" <+: s) (b b' : List Str) {i : Nat} (hi : i < a.length) :
    readTable101 (a ++ s :: a' ++ b) i = readTable101 (a ++ s :: a' ++ b') i := by
  have key : ∀ b : List Str, (a ++ s :: a' ++ b).drop i = (a ++ s :: a').drop i ++ b := by
    intro b
    rw [List.drop_append_of_le_length (by simp; omega)]
  obtain ⟨j, hj⟩ := findLine_some (a := (a ++ s :: a').drop i) (l := s) (by
    rw [List.drop_append_of_le_length hi.le]; simp) ((take_prefix (n := 8) rfl).2 hs) 0
  obtain ⟨h1, h2⟩ := findLine_mono b hj
  obtain ⟨h1', _⟩ := findLine_mono b' hj
  unfold readTable101 findLine
  rw [key, key, h1, h1', ex_ok_bind, ex_ok_bind, slice_same _ b b' i (by simp at h2 ⊢; omega)]

private theorem forall₂_source {α β : Type} {R : α → β → Prop} {m : List α} {r : List β} (h : List.Forall₂ R m r) :
    ∀ n ∈ r, ∃ l ∈ m, R l n := by
  induction h with
  | nil => simp
  | cons hx _ ih =>
    intro n hn
    rcases List.mem_cons.1 hn with rfl | hn
    · exact ⟨_, by simp, hx⟩
    · obtain ⟨l, hl, e⟩ := ih n hn
      exact ⟨l, by simp [hl], e⟩

private theorem nums_listed {before after : List Str} {ss : List Printed} (hs : Surrounding before after ss) (hok : ∀ s ∈ ss, PrintedOk s)
    {ns : List Str} (h : getTallyNums (before ++ (printedLines ss ++ after)) = .ok ns) : ∀ n ∈ ns, ∃ s ∈ ss, n = s.tnum := by
  unfold getTallyNums at h
  obtain ⟨r, h1, h2⟩ := ex_bind_ok.1 h
  cases h2
  intro n hn
  rw [List.mem_dedup] at hn
  rw [mapM_except_ok_iff] at h1
  obtain ⟨l, hl, hln⟩ := forall₂_source h1 n hn
  have hw : (stringCleanAndSplit l)[1]? = some n := by
    cases hg : (stringCleanAndSplit l)[1]? with
    | none => rw [hg] at hln; cases hln
    | some w => rw [hg] at hln; cases hln; rfl
  obtain ⟨hm, ht⟩ := List.mem_filter.1 hl
  have hpre : p!"1tally     " <+: l := (take_prefix (n := 11) rfl).1 (of_decide_eq_true ht)
  have other : l ∈ before ++ after → ∃ s ∈ ss, n = s.tnum := by
    intro hm
    obtain ⟨s, hss, e⟩ := hs.others l hm hpre
    rw [hw] at e
    exact ⟨s, hss, Option.some.inj e⟩
  rcases List.mem_append.1 hm with hm | hm
  · exact other (List.mem_append_left _ hm)
  · rcases List.mem_append.1 hm with hm | hm
    · obtain ⟨s, hss, hm⟩ := List.mem_flatMap.1 hm
      rcases List.mem_cons.1 hm with rfl | hm
      · have := hs.word s hss
        rw [hw] at this
        exact ⟨s, hss, Option.some.inj this⟩
      · exact absurd ((show p!"1tally" <+: p!"1tally     " from by decide).trans hpre) ((hok s hss).body l hm)
    · exact other (List.mem_append_right _ hm)

/-- C263: from a whole file with the tallies in any other order the same is read, with the tallies, comments and warnings in the order of the file. -/
theorem C263_file [LinearOrder F] {flt : Str → Option F} {minusOne : F} {enum : List Str → List Str} (he : ∀ l, (enum l).Perm l) (path : Str)
    {ss ss' : List Printed} (hok : ∀ s ∈ ss, PrintedOk s) (hown : OwnHeads ss) (hp : ss.Perm ss') {top mid post : List Str} {term last : Str}
    (hterm : TermLine term) (htop : ∀ l ∈ top, ¬ TermLine l) (hmid : ∀ l ∈ term :: mid, ¬ p!"1tally" <+: l) (hlast : p!"1tally" <+: last)
    (hs : Surrounding (top ++ term :: mid) (last :: post) ss) {o : Output F}
    (h : readOutputLines flt minusOne enum path (top ++ term :: (mid ++ (printedLines ss ++ last :: post))) = .ok o) :
    ∃ o', readOutputLines flt minusOne enum path (top ++ term :: (mid ++ (printedLines ss' ++ last :: post))) = .ok o' ∧
      o'.fileName = o.fileName ∧ o'.version = o.version ∧ o'.date = o.date ∧ o'.startTime = o.startTime ∧ o'.numTallies = o.numTallies ∧
      o'.numRendevous = o.numRendevous ∧ o.tallyData.Perm o'.tallyData ∧ o'.t60 = o.t60 ∧ o'.t101 = o.t101 ∧ o.warnings.Perm o'.warnings ∧
      o.comments.Perm o'.comments ∧ o'.tables = o.tables ∧ o'.fatal = o.fatal := by
  have tally := fun {s} (hm : s ∈ ss) => C263_tally flt minusOne enum hok hown hp (post := post) hterm htop hmid hlast hm
  have form : ∀ ss : List Printed, top ++ term :: (mid ++ (printedLines ss ++ last :: post)) =
      (top ++ term :: mid) ++ (printedLines ss ++ last :: post) := by intro ss; simp
  simp only [form] at tally h ⊢
  generalize top ++ term :: mid = before at *
  generalize last :: post = after at *
  clear htop hmid hterm form
  have hl : (before ++ (printedLines ss ++ after)).Perm (before ++ (printedLines ss' ++ after)) :=
    List.Perm.append_left _ (List.Perm.append_right _ (hp.flatMap_right _))
  have hpt : ∀ l ∈ printedLines ss, ¬ p!"print table" <:+: l := by
    intro l hm
    obtain ⟨s, hss, hm⟩ := List.mem_flatMap.1 hm
    exact hs.tables s hss l hm
  have hpt' : ∀ l ∈ printedLines ss', ¬ p!"print table" <:+: l := fun l hm => hpt l ((hp.flatMap_right _).mem_iff.2 hm)
  have htab : getTableDict (before ++ (printedLines ss ++ after)) = getTableDict (before ++ (printedLines ss' ++ after)) := by
    rw [tables_append _ _ _ hpt, tables_append _ _ _ hpt', printed_length hp]
  have hdate : readRunDate (before ++ (printedLines ss ++ after)) = readRunDate (before ++ (printedLines ss' ++ after)) := by
    have hg : ∀ b : List Str, (if (before ++ b).length > 101 then (before ++ b).take 100 else before ++ b) =
        if (before ++ b).length > 101 then before.take 100 else before ++ b := by
      intro b
      split_ifs
      · rw [List.take_append_of_le_length (by have := hs.long; omega)]
      · rfl
    unfold readRunDate
    have hlen := hl.length_eq
    by_cases hc : (before ++ (printedLines ss ++ after)).length > 101
    · simp only [hg, if_pos hc, if_pos (hlen ▸ hc)]
    · have := hs.long
      have e0 : printedLines ss ++ after = [] := by
        rw [← List.length_eq_zero_iff]
        rw [List.length_append] at hc
        omega
      have e1 : printedLines ss' ++ after = [] := by
        rw [← List.length_eq_zero_iff]
        rw [hlen, List.length_append] at hc
        omega
      rw [e0, e1]
  have hver : readVersion (before ++ (printedLines ss ++ after)) = readVersion (before ++ (printedLines ss' ++ after)) := by
    cases hb : before with
    | nil => have := hs.long; rw [hb] at this; simp at this
    | cons l b => rfl
  have h60 : readTableIf readTable60 (before ++ (printedLines ss ++ after)) (getTableDict (before ++ (printedLines ss ++ after))) p!"60" =
      readTableIf readTable60 (before ++ (printedLines ss' ++ after)) (getTableDict (before ++ (printedLines ss' ++ after))) p!"60" := by
    unfold readTableIf
    rw [htab]
    cases (getTableDict (before ++ (printedLines ss' ++ after))).get p!"60" with
    | none => rfl
    | some i => simp only; rw [table60_same hs.weight _ (printedLines ss' ++ after) i]
  have h101 : readTableIf readTable101 (before ++ (printedLines ss ++ after)) (getTableDict (before ++ (printedLines ss ++ after))) p!"101" =
      readTableIf readTable101 (before ++ (printedLines ss' ++ after)) (getTableDict (before ++ (printedLines ss' ++ after))) p!"101" := by
    unfold readTableIf
    rw [htab]
    cases hg : (getTableDict (before ++ (printedLines ss' ++ after))).get p!"101" with
    | none => rfl
    | some i =>
      simp only
      obtain ⟨a, s, b, rfl, hst, hnb⟩ := hs.stars
      have hi : i < a.length := by
        rw [tables_append _ _ _ hpt', tables_other (fun l hl hpl => last_key (hs.last l hl hpl)), List.zipIdx_append, List.foldl_append,
          tables_skip hnb] at hg
        have := tables_below (fun _ hi => by cases hi) hg
        omega
      rw [table101_same hst _ (printedLines ss' ++ after) hi]
  unfold readOutputLines at h ⊢
  obtain ⟨dt, e1, h⟩ := ex_bind_ok.1 h
  obtain ⟨t60, e2, h⟩ := ex_bind_ok.1 h
  obtain ⟨t101, e3, h⟩ := ex_bind_ok.1 h
  obtain ⟨tls, e4, h⟩ := ex_bind_ok.1 h
  obtain ⟨ts, e5, h⟩ := ex_bind_ok.1 h
  cases h
  obtain ⟨tls', f4, hnum⟩ : ∃ ns', getTallyNums (before ++ (printedLines ss' ++ after)) = .ok ns' ∧ tls.Perm ns' := C263_numbers hp before after e4
  have hmem := nums_listed hs hok e4
  have e5' : (enum tls).mapM (readTally flt minusOne enum (before ++ (printedLines ss' ++ after))) = .ok ts := by
    rw [← e5]
    have : ∀ n ∈ enum tls, readTally flt minusOne enum (before ++ (printedLines ss' ++ after)) n =
        readTally flt minusOne enum (before ++ (printedLines ss ++ after)) n := by
      intro n hn
      obtain ⟨s, hss, rfl⟩ := hmem n ((he tls).mem_iff.1 hn)
      exact (tally hss).symm
    clear e5
    generalize enum tls = m at this
    induction m with
    | nil => rfl
    | cons n m ih => rw [List.mapM_cons, List.mapM_cons, this n (by simp), ih (fun k hk => this k (by simp [hk]))]
  obtain ⟨ts', f5, hts⟩ := mapM_perm (((he tls).trans hnum).trans (he tls').symm) e5'
  rw [← hdate, e1, ex_ok_bind]
  dsimp only
  rw [← h60, e2, ex_ok_bind, ← h101, e3, ex_ok_bind, f4, ex_ok_bind, f5, ex_ok_bind]
  refine ⟨_, rfl, rfl, hver.symm, rfl, rfl, hnum.length_eq.symm, ?_, hts, rfl, rfl, hl.filter _, hl.filter _, htab.symm, ?_⟩
  · unfold countRendevous getRendevousIndex
    rw [List.length_map, List.length_map]
    have count : ∀ (l : List Str) (n : Nat), ((l.zipIdx n).filter (fun e => hasSub p!"master set rendezvous nps" e.1)).length =
        (l.filter (hasSub p!"master set rendezvous nps")).length := by
      intro l
      induction l with
      | nil => intro n; rfl
      | cons x l ih =>
        intro n
        rw [List.zipIdx_cons, List.filter_cons, List.filter_cons]
        cases hx : hasSub p!"master set rendezvous nps" x <;> simp [ih]
    rw [count, count]
    exact (hl.filter _).length_eq.symm
  · unfold checkFatal
    rw [Bool.eq_iff_iff, List.any_eq_true, List.any_eq_true]
    exact exists_congr fun l => and_congr_left fun _ => hl.mem_iff.symm

example : Surrounding (List.replicate 99 [] ++ [p!"    minimum source weight = 1.0000E+00", p!" ***********"])
    [p!"1tally fluctuation charts", p!" print table 162"]
    [⟨p!"4", p!"1tally        4        nps =     1000", [p!"a", p!"b", p!"c"]⟩, ⟨p!"14", p!"1tally       14        nps =     1000", [p!"a", p!"b", p!"c"]⟩] where
  long := by decide
  weight := ⟨_, List.mem_append_right _ (List.mem_cons_self ..), by decide⟩
  stars := ⟨List.replicate 99 [] ++ [p!"    minimum source weight = 1.0000E+00"], p!" ***********", [], by simp, by decide, by
    intro l hl; rw [List.mem_singleton] at hl; subst hl; decide⟩
  tables := by
    intro s hs l hl
    simp only [List.mem_cons, List.not_mem_nil, or_false] at hs
    rcases hs with rfl | rfl <;> simp only [List.mem_cons, List.not_mem_nil, or_false] at hl <;> rcases hl with rfl | rfl | rfl | rfl <;> decide
  last := by
    intro l hl
    simp only [List.mem_cons, List.not_mem_nil, or_false] at hl
    rcases hl with rfl | rfl <;> decide
  word := by
    intro s hs
    simp only [List.mem_cons, List.not_mem_nil, or_false] at hs
    rcases hs with rfl | rfl <;> decide
  others := by
    intro l hl h
    simp only [List.mem_append, List.mem_replicate, List.mem_cons, List.not_mem_nil, or_false] at hl
    rcases hl with (⟨_, rfl⟩ | rfl | rfl) | rfl | rfl <;> revert h <;> decide

end Props
