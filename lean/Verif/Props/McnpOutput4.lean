/- Properties C103, C140, C142, C143 of mcnp_output_reader.py. -/
import Verif.Proofs.McnpOutput

set_option linter.unusedSectionVars false
set_option linter.unusedSimpArgs false

namespace Props
open Py NeutUtilities McnpOutput
variable {F : Type}

/-! ### C103: point detectors -/

private theorem pyFloat_ok {flt : Str → Option F} {s : Str} {x : F} : pyFloat flt s = .ok x ↔ flt s = some x := by
  unfold pyFloat; rw [orErr_ok_iff]

/-- The text between the first and the second "=" of a line. -/
def BetweenEquals (l s : Str) : Prop := ∃ a b, l = a ++ '=' :: b ∧ '=' ∉ a ∧ FirstPiece '=' b s

/-- The line of the detector: the first that begins with " detector located". -/
def DetectorLine (lines : List Str) (i : Nat) : Prop := Spec.IsLeast (fun j => ∃ l, lines[j]? = some l ∧ p!" detector located" <+: l) i

private theorem position_ok {flt : Str → Option F} {l : Str} {p : F × F × F} :
    type5Position flt l = .ok p ↔ ∃ s, BetweenEquals l s ∧ flt (strip (s.take 12)) = some p.1 ∧
      flt (strip ((s.drop 12).take 12)) = some p.2.1 ∧ flt (strip ((s.drop 24).take 12)) = some p.2.2 := by
  have hs : ∀ (s : Str) (a : Nat), slice s a (a + 12) = (s.drop a).take 12 := by
    intro s a; unfold slice; rw [List.take_drop]
  unfold type5Position
  simp only [ex_bind_ok, orErr_ok_iff, pyFloat_ok, ex_pure, Except.ok.injEq, splitOn_one]
  constructor
  · rintro ⟨s, hb, x, hx, y, hy, z, hz, rfl⟩
    exact ⟨s, hb, by simpa [slice] using hx, by rw [← hs]; exact hy, by rw [← hs]; exact hz⟩
  · rintro ⟨s, hb, hx, hy, hz⟩
    exact ⟨s, hb, _, by simpa [slice] using hx, _, by rw [← hs] at hy; exact hy, _, by rw [← hs] at hz; exact hz, rfl⟩

private theorem userBlocks_pos [LinearOrder F] {flt : Str → Option F} {bin : List Str} {ls : List Nat} {t t' : Tally F}
    (h : userBlocks flt bin ls t = .ok t') : t'.pos = t.pos := by
  fun_induction userBlocks flt bin ls t with
  | case1 a b ls t ih =>
    simp only [ex_bind_ok] at h
    obtain ⟨r, _, res, _, err, _, h⟩ := h
    exact ih r res err h
  | case2 => simp only [Except.ok.injEq] at h; rw [h]

private theorem result_pos [LinearOrder F] {flt : Str → Option F} {lines : List Str} {loc : Nat} {t t' : Tally F}
    (h : type5Result flt t lines loc = .ok t') : t'.pos = t.pos := by
  unfold type5Result at h
  rw [ex_bind_ok] at h
  obtain ⟨rl, _, h⟩ := h
  split at h
  · simp only [ex_bind_ok, ex_pure, Except.ok.injEq] at h
    obtain ⟨_, _, _, _, rfl⟩ := h; rfl
  · split at h
    · simp only [ex_bind_ok, ex_pure, Except.ok.injEq] at h
      obtain ⟨_, _, _, _, rfl⟩ := h; rfl
    · split at h
      · simp only at h
        have := userBlocks_pos h
        exact this
      · simp only [ex_bind_ok, ex_pure, Except.ok.injEq] at h
        obtain ⟨_, _, _, _, _, _, _, _, _, _, _, _, rfl⟩ := h; rfl

/-- What the general data leave alone. -/
private theorem general_keeps {flt : Str → Option F} {lines : List Str} {t t' : Tally F}
    (h : type5General flt t lines = .ok t') : t'.pos = t.pos ∧ t'.result = t.result ∧ t'.err = t.err := by
  unfold type5General at h
  simp only [ex_bind_ok, ex_pure, Except.ok.injEq] at h
  obtain ⟨_, _, _, _, _, _, _, _, _, _, _, _, _, _, _, _, _, _, _, _, _, _, _, _, _, _, rfl⟩ := h
  exact ⟨rfl, rfl, rfl⟩

/-- Whatever the kind of result: the position consists of the three fields of twelve columns behind the first "=". -/
theorem C103_position [LinearOrder F] {flt : Str → Option F} {t t' : Tally F} {lines : List Str} (h : readType5 flt t lines = .ok t') :
    ∃ i l s x y z, DetectorLine lines i ∧ lines[i]? = some l ∧ BetweenEquals l s ∧ t'.pos = some (x, y, z) ∧
      flt (strip (s.take 12)) = some x ∧ flt (strip ((s.drop 12).take 12)) = some y ∧ flt (strip ((s.drop 24).take 12)) = some z := by
  unfold readType5 at h
  simp only [ex_bind_ok] at h
  obtain ⟨i, hi, l, hl, p, hp, t1, h1, h2⟩ := h
  obtain ⟨s, hs, hx, hy, hz⟩ := position_ok.1 hp
  refine ⟨i, l, s, p.1, p.2.1, p.2.2, (findLine_prefix (show p!" detector located".length = 17 from rfl)).1 hi,
    orErr_ok_iff.1 hl, hs, ?_, hx, hy, hz⟩
  rw [(general_keeps h2).1, result_pos h1]

/-- No detector line, or a coordinate that is not a number, is a ValueError. -/
theorem C103_position_error [LinearOrder F] (flt : Str → Option F) (t : Tally F) (lines : List Str) :
    ((∀ l ∈ lines, ¬ p!" detector located" <+: l) → readType5 flt t lines = .error .ValueError) ∧
    ∀ i l s, DetectorLine lines i → lines[i]? = some l → BetweenEquals l s →
      (flt (strip (s.take 12)) = none ∨ flt (strip ((s.drop 12).take 12)) = none ∨ flt (strip ((s.drop 24).take 12)) = none) →
      readType5 flt t lines = .error .ValueError := by
  constructor
  · intro h
    unfold readType5
    rw [(findLine_none (show p!" detector located".length = 17 from rfl)).2 ⟨rfl, h⟩]
    rfl
  · intro i l s hi hl hs hn
    have e1 : findLine p!" detector located" lines 17 = .ok i := (findLine_prefix (show p!" detector located".length = 17 from rfl)).2 hi
    have e2 : type5Position flt l = .error .ValueError := by
      have e3 : (splitOn '=' l)[1]? = some s := splitOn_one.2 hs
      have hsl : ∀ (a : Nat), slice s a (a + 12) = (s.drop a).take 12 := by
        intro a; unfold slice; rw [List.take_drop]
      have h0 : slice s 0 12 = s.take 12 := by simp [slice]
      unfold type5Position
      simp only [e3, orErr, ex_ok_bind, h0, hsl 12, hsl 24, pyFloat]
      cases h1 : flt (strip (s.take 12)) with
      | none => rfl
      | some x =>
        simp only [ex_ok_bind]
        cases h2 : flt (strip ((s.drop 12).take 12)) with
        | none => rfl
        | some y =>
          simp only [ex_ok_bind]
          cases h3 : flt (strip ((s.drop 24).take 12)) with
          | none => rfl
          | some z => simp [h1, h2, h3] at hn
    unfold readType5
    simp only [e1, ex_ok_bind, at', hl, orErr, e2]
    rfl

/-- The line of a single result. -/
def SingleLine (rl : Str) : Prop := rl ≠ p!"      energy   " ∧ ¬ p!"time" <:+: rl ∧ ¬ p!"user bin" <:+: rl

private theorem last_pieces {r v e : Str} (hr : r = [] ∨ ∃ r', r = r' ++ [' ']) (hv : ' ' ∉ v) (he : ' ' ∉ e) :
    (splitOn ' ' (r ++ v ++ ' ' :: e)).drop ((splitOn ' ' (r ++ v ++ ' ' :: e)).length - 2) = [v, e] := by
  have hn : ∀ w : Str, ' ' ∉ w → splitP (· == ' ') w = [w] := by
    intro w hw
    apply splitP_of_not_mem
    intro d hd
    simp only [beq_eq_false_iff_ne, ne_eq]
    rintro rfl; exact hw hd
  obtain ⟨ps, hps⟩ : ∃ ps, splitOn ' ' (r ++ v ++ ' ' :: e) = ps ++ [v, e] := by
    unfold splitOn
    rw [splitP_append_sep (by simp), hn e he]
    rcases hr with rfl | ⟨r', rfl⟩
    · exact ⟨[], by simp [hn v hv]⟩
    · refine ⟨splitP (· == ' ') r', ?_⟩
      have : r' ++ [' '] ++ v = r' ++ ' ' :: v := by simp
      rw [this, splitP_append_sep (by simp), hn v hv]; simp
  rw [hps]
  simp

/-- A single result: the last two entries of the line, when they are separated by one blank and nothing follows. -/
theorem C103_result_partial [LinearOrder F] {flt : Str → Option F} {t t' : Tally F} {lines : List Str} {i : Nat} {r v e : Str} {xs ys : List (Item F)}
    (hi : DetectorLine lines i) (hl : lines[i + 1]? = some (r ++ v ++ ' ' :: e)) (hs : SingleLine (r ++ v ++ ' ' :: e))
    (hr : r = [] ∨ ∃ r', r = r' ++ [' ']) (hv : ' ' ∉ v) (he : ' ' ∉ e) (hx : t.result = .items xs) (hy : t.err = .items ys)
    (h : readType5 flt t lines = .ok t') :
    ∃ a b, flt v = some a ∧ flt e = some b ∧ t'.result = .items (xs ++ [.num a]) ∧ t'.err = .items (ys ++ [.num b]) := by
  have e1 : findLine p!" detector located" lines 17 = .ok i := (findLine_prefix (show p!" detector located".length = 17 from rfl)).2 hi
  unfold readType5 at h
  simp only [ex_bind_ok] at h
  obtain ⟨i', hi', l, _, p, _, t1, h1, h2⟩ := h
  rw [e1] at hi'
  obtain rfl := Except.ok.inj hi'
  obtain ⟨_, k1, k2⟩ := general_keeps h2
  unfold type5Result at h1
  simp only [at', hl, orErr, ex_ok_bind] at h1
  rw [if_neg hs.1, if_neg (by rw [hasSub_iff]; exact hs.2.1), if_neg (by rw [hasSub_iff]; exact hs.2.2), last_pieces hr hv he] at h1
  simp only [List.getElem?_cons_zero, List.getElem?_cons_succ, ex_ok_bind, hx, hy, Res.append, ex_bind_ok, pyFloat_ok, ex_pure,
    Except.ok.injEq] at h1
  obtain ⟨a, ha, b, hb, rfl⟩ := h1
  exact ⟨a, b, ha, hb, k1, k2⟩

private theorem single_error [LinearOrder F] {flt : Str → Option F} {t : Tally F} {lines : List Str} {i : Nat} {l rl x y : Str} {p : F × F × F}
    (hi : DetectorLine lines i) (hli : lines[i]? = some l) (hp : type5Position flt l = .ok p) (hl : lines[i + 1]? = some rl)
    (hs : SingleLine rl) (hd : (splitOn ' ' rl).drop ((splitOn ' ' rl).length - 2) = [x, y]) (hf : flt x = none ∨ flt y = none)
    {xs ys : List (Item F)} (hx : t.result = .items xs) (hy : t.err = .items ys) :
    readType5 flt t lines = .error .ValueError := by
  have e1 : findLine p!" detector located" lines 17 = .ok i := (findLine_prefix (show p!" detector located".length = 17 from rfl)).2 hi
  have e2 : ∀ q, type5Result flt { t with pos := q } lines i = .error .ValueError := by
    intro q
    unfold type5Result
    simp only [at', hl, orErr, ex_ok_bind]
    rw [if_neg hs.1, if_neg (by rw [hasSub_iff]; exact hs.2.1), if_neg (by rw [hasSub_iff]; exact hs.2.2), hd]
    simp only [List.getElem?_cons_zero, List.getElem?_cons_succ, ex_ok_bind, hx, hy, Res.append, pyFloat]
    cases hxx : flt x with
    | none => rfl
    | some a =>
      simp only [orErr, ex_ok_bind]
      cases hyy : flt y with
      | none => rfl
      | some b => simp [hxx, hyy] at hf
  unfold readType5
  simp only [e1, ex_ok_bind, at', hli, orErr, hp, e2]
  rfl

/-- Entries that are not numbers are a ValueError. -/
theorem C103_result_error [LinearOrder F] {flt : Str → Option F} {t : Tally F} {lines : List Str} {i : Nat} {l r v e s : Str} {p : F × F × F}
    (hi : DetectorLine lines i) (hli : lines[i]? = some l) (hb : BetweenEquals l s)
    (hpx : flt (strip (s.take 12)) = some p.1) (hpy : flt (strip ((s.drop 12).take 12)) = some p.2.1)
    (hpz : flt (strip ((s.drop 24).take 12)) = some p.2.2)
    (hl : lines[i + 1]? = some (r ++ v ++ ' ' :: e)) (hs : SingleLine (r ++ v ++ ' ' :: e))
    (hr : r = [] ∨ ∃ r', r = r' ++ [' ']) (hv : ' ' ∉ v) (he : ' ' ∉ e) (hf : flt v = none ∨ flt e = none)
    {xs ys : List (Item F)} (hx : t.result = .items xs) (hy : t.err = .items ys) :
    readType5 flt t lines = .error .ValueError :=
  single_error hi hli (position_ok.2 ⟨s, hb, hpx, hpy, hpz⟩) hl hs (last_pieces hr hv he) hf hx hy

/-- The line is cut at single blanks: a blank at its end, or two blanks between value and error, make it unreadable. -/
theorem C103_blanks_violated [LinearOrder F] {flt : Str → Option F} (hflt : flt [] = none) {t : Tally F} {lines : List Str} {i : Nat} {l s r v e : Str}
    {p : F × F × F} (hi : DetectorLine lines i) (hli : lines[i]? = some l) (hb : BetweenEquals l s)
    (hpx : flt (strip (s.take 12)) = some p.1) (hpy : flt (strip ((s.drop 12).take 12)) = some p.2.1)
    (hpz : flt (strip ((s.drop 24).take 12)) = some p.2.2) (he : ' ' ∉ e)
    (hl : lines[i + 1]? = some (r ++ v ++ p!"  " ++ e) ∧ SingleLine (r ++ v ++ p!"  " ++ e) ∨
      lines[i + 1]? = some (r ++ v ++ p!" " ++ e ++ p!" ") ∧ SingleLine (r ++ v ++ p!" " ++ e ++ p!" "))
    {xs ys : List (Item F)} (hx : t.result = .items xs) (hy : t.err = .items ys) :
    readType5 flt t lines = .error .ValueError := by
  have hp := position_ok.2 ⟨s, hb, hpx, hpy, hpz⟩
  rcases hl with ⟨hl, hs⟩ | ⟨hl, hs⟩
  · have e0 : r ++ v ++ p!"  " ++ e = (r ++ v ++ [' ']) ++ [] ++ ' ' :: e := by simp
    rw [e0] at hl hs
    exact single_error hi hli hp hl hs (last_pieces (Or.inr ⟨r ++ v, rfl⟩) (by simp) he) (Or.inl hflt) hx hy
  · have e0 : r ++ v ++ p!" " ++ e ++ p!" " = (r ++ v ++ [' ']) ++ e ++ ' ' :: [] := by simp
    rw [e0] at hl hs
    exact single_error hi hli hp hl hs (last_pieces (Or.inr ⟨r ++ v, rfl⟩) he (by simp)) (Or.inr hflt) hx hy

private def pd : List Str := [p!" detector located at x,y,z =           1           2           3", p!"     7 8",
  p!"  average tally per history = 00000000004    largest score = 5", p!"  (largest score)/(average) = 1 nps of largest score = 6",
  p!" score misses", p!" roulette  11", p!" psc=0  12", p!" transmission 13", p!" underflow  14", p!" zero 15", p!" cutoff 16"]

private def t0 : Tally Nat := ⟨5, '5', [], .inr 0, .items [], .items [], none, none, none, none, [], [], [], [], none, none, none, none, none, []⟩

example : (readType5 (fun s => pyNat (strip s)) t0 pd).map (fun t => (t.pos, t.result, t.err)) =
    .ok (some (1, 2, 3), .items [.num 7], .items [.num 8]) := by decide +kernel

/-! ### C140: general data of a point detector -/

/-- `w` is the last word of line `i`. -/
def LastWordAt (lines : List Str) (i : Nat) (w : Str) : Prop := ∃ l ws, lines[i]? = some l ∧ Spec.IsWords l (ws ++ [w])

private theorem lastNumber_ok {flt : Str → Option F} (hflt : flt [] = none) {lines : List Str} {i : Nat} {x : F}
    (h : lastNumber flt lines i ' ' = .ok x) : ∃ w, LastWordAt lines i w ∧ flt w = some x := by
  unfold lastNumber at h
  simp only [ex_bind_ok, at', orErr_ok_iff, pyFloat_ok] at h
  obtain ⟨l, hl, hx⟩ := h
  refine ⟨_, ⟨l, (splitWs l).dropLast, hl, ?_⟩, hx⟩
  have hne : splitWs l ≠ [] := by
    intro h0
    rw [stringCleanAndSplit, stringCleaner_eq, h0] at hx
    have : (splitOn ' ' (join p!" " [])).getLastD [] = [] := by decide +kernel
    rw [this, hflt] at hx
    simp at hx
  rw [isWords_iff, stringCleanAndSplit, splitOn_stringCleaner hne, List.getLastD_eq_getLast?, List.getLast?_eq_some_getLast hne]
  exact (List.dropLast_append_getLast hne).symm

/-- The six numbers of lost scores are the last words of the six lines behind the heading; average, largest score and its history
    come from the line of the average and the next one. -/
theorem C140_general [LinearOrder F] {flt : Str → Option F} (hflt : flt [] = none) {t t' : Tally F} {lines : List Str}
    (h : readType5 flt t lines = .ok t') :
    (∃ m, Spec.IsLeast (fun j => ∃ l, lines[j]? = some l ∧ p!"score misses" <:+: l) m ∧
      t'.misses.map (·.1) = [p!"russian roulette on pd", p!"psc=0", p!"russian roulette in transmission",
        p!"underflow in transmission", p!"hit a zero-importance cell", p!"energy cutoff"] ∧
      ∀ k x, t'.misses[k]? = some x → ∃ w, LastWordAt lines (m + 1 + k) w ∧ flt w = some x.2) ∧
    ∃ i l n a b c, Spec.IsLeast (fun j => ∃ l, lines[j]? = some l ∧ p!" average tally per history" <:+: l) i ∧
      lines[i]? = some l ∧ lines[i + 1]? = some n ∧
      BetweenEquals (join p!" " (splitWs l)) a ∧ (∃ x, t'.averagePerHistory = some x ∧ flt ((a.drop 1).take 12) = some x) ∧
      (∃ pre, join p!" " (splitWs l) = pre ++ '=' :: b) ∧ '=' ∉ b ∧ (∃ x, t'.largestScore = some x ∧ flt b = some x) ∧
      (join p!" " (splitWs n) = c ∨ ∃ pre, join p!" " (splitWs n) = pre ++ '=' :: c) ∧ '=' ∉ c ∧
      (∃ x, t'.largestScoreNps = some x ∧ flt c = some x) := by
  have hlast : ∀ s : Str, '=' ∉ (splitOn '=' s).getLastD [] ∧ (s = (splitOn '=' s).getLastD [] ∨ ∃ pre, s = pre ++ '=' :: (splitOn '=' s).getLastD []) := by
    intro s
    have hne : splitOn '=' s ≠ [] := splitP_ne_nil _ _
    have hj := join_splitOn '=' s
    have hd := (List.dropLast_append_getLast hne).symm
    have hg : (splitOn '=' s).getLastD [] = (splitOn '=' s).getLast hne := by
      rw [List.getLastD_eq_getLast?, List.getLast?_eq_some_getLast hne]; rfl
    rw [hg]
    constructor
    · intro hm
      have := mem_splitP (p := (· == '=')) (s := s) (List.getLast_mem hne) '=' hm
      simp at this
    · rw [hd] at hj
      generalize (splitOn '=' s).getLast hne = g at *
      generalize (splitOn '=' s).dropLast = L at *
      clear hd hg hne
      subst hj
      induction L with
      | nil => left; rfl
      | cons x L ih =>
        right
        rw [List.cons_append, join_cons (by simp)]
        rcases ih with h0 | ⟨pre, h0⟩
        · exact ⟨x, by rw [h0]; simp⟩
        · exact ⟨x ++ '=' :: pre, by rw [h0]; simp⟩
  unfold readType5 at h
  simp only [ex_bind_ok] at h
  obtain ⟨_, _, _, _, _, _, t1, _, h⟩ := h
  unfold type5General at h
  simp only [ex_bind_ok, ex_pure, Except.ok.injEq] at h
  obtain ⟨i, hi, l, hl, s, hs, ave, have', big, hbig, bn, hbn, m, hm, m1, h1, m2, h2, m3, h3, m4, h4, m5, h5, m6, h6, rfl⟩ := h
  rw [findInd_eq, orErr_ok_iff, findIdx?_isLeast] at hi hm
  simp only [hasSub_iff] at hi hm
  constructor
  · refine ⟨m, hm, rfl, ?_⟩
    intro k x hk
    have hk6 : k < 6 := (List.getElem?_eq_some_iff.1 hk).1
    rcases k with _ | _ | _ | _ | _ | _ | k
    · obtain rfl := Option.some.inj hk; exact lastNumber_ok hflt h1
    · obtain rfl := Option.some.inj hk; exact lastNumber_ok hflt h2
    · obtain rfl := Option.some.inj hk; exact lastNumber_ok hflt h3
    · obtain rfl := Option.some.inj hk; exact lastNumber_ok hflt h4
    · obtain rfl := Option.some.inj hk; exact lastNumber_ok hflt h5
    · obtain rfl := Option.some.inj hk; exact lastNumber_ok hflt h6
    · omega
  · unfold lastNumber at hbn
    simp only [ex_bind_ok, at', orErr_ok_iff, pyFloat_ok, stringCleanAndSplit, stringCleaner_eq] at hl hbn hs have' hbig
    obtain ⟨n, hn, hbn⟩ := hbn
    have hb := splitOn_one.1 hs
    refine ⟨i, l, n, s, _, _, hi, hl, hn, hb, ⟨ave, rfl, ?_⟩, ?_, (hlast _).1, ⟨big, rfl, hbig⟩, ?_, (hlast _).1, ⟨bn, rfl, hbn⟩⟩
    · have : slice s 1 13 = (s.drop 1).take 12 := by unfold slice; rw [List.take_drop]
      rw [← this]; exact have'
    · rcases (hlast (join p!" " (splitWs l))).2 with h0 | h0
      · exfalso
        obtain ⟨a, b, hab, _, _⟩ := hb
        have hmem : '=' ∈ join p!" " (splitWs l) := by rw [hab]; simp
        rw [h0] at hmem
        exact (hlast _).1 hmem
      · exact h0
    · exact (hlast (join p!" " (splitWs n))).2

example : (readType5 (fun s => pyNat (strip s)) t0 pd).map
    (fun t => (t.averagePerHistory, t.largestScore, t.largestScoreNps, t.misses.map (·.2))) =
    .ok (some 4, some 5, some 6, [11, 12, 13, 14, 15, 16]) := by decide +kernel

/-! ### C142: single results of several surfaces -/

/-- The blocks of a surface tally: a heading " surface ", a line that begins with value and error, other lines. -/
inductive SurfBlocks (flt : Str → Option F) : List Str → List F → List F → Prop
  | nil : SurfBlocks flt [] [] []
  | block {h l v e : Str} {a b : F} {others rest : List Str} {as bs : List F} : p!" surface " <+: h →
      (strip l = v ++ ' ' :: e ∧ ' ' ∉ v ∧ ' ' ∉ e) → flt v = some a → flt e = some b → ¬ p!" surface " <+: l →
      (∀ x ∈ others, ¬ p!" surface " <+: x) → SurfBlocks flt rest as bs →
      SurfBlocks flt (h :: l :: (others ++ rest)) (a :: as) (b :: bs)

private theorem findIdx_append {α : Type} {p : α → Bool} {a b : List α} {x : α} (ha : ∀ y ∈ a, p y = false) (hx : p x = true) :
    (a ++ x :: b).findIdx? p = some a.length := by
  rw [findIdx?_isLeast]
  refine ⟨⟨x, by simp, hx⟩, ?_⟩
  rintro j hj ⟨y, hy, hp⟩
  rw [List.getElem?_append_left hj] at hy
  rw [ha y (List.mem_of_getElem? hy)] at hp
  simp at hp

private theorem valueLoop {flt : Str → Option F} {ls : List Str} {as bs : List F} (h : SurfBlocks flt ls as bs) (done pre : List Str)
    (hp : ∀ x ∈ pre, ¬ p!" surface " <+: x) (rs es : List (Item F)) :
    surfValueLoop flt (done ++ (pre ++ ls)) as.length done.length rs es = .ok (rs ++ as.map .num, es ++ bs.map .num) := by
  induction h generalizing done pre rs es with
  | nil => simp [surfValueLoop]
  | @block h l v e a b others rest as bs hh hl ha hb hls ho _ ih =>
    have e1 : findLine p!" surface " ((done ++ (pre ++ h :: l :: (others ++ rest))).drop done.length) 9 = .ok pre.length := by
      rw [List.drop_left, findLine_eq, findIdx_append]
      · rfl
      · intro y hy
        rw [decide_eq_false_iff_not, take_eq_prefix (show p!" surface ".length = 9 from rfl)]
        exact hp y hy
      · rw [decide_eq_true_eq, take_eq_prefix (show p!" surface ".length = 9 from rfl)]
        exact hh
    have e2 : at' (done ++ (pre ++ h :: l :: (others ++ rest))) (pre.length + done.length + 1) = .ok l := by
      unfold at'
      rw [List.getElem?_append_right (by omega), List.getElem?_append_right (by omega)]
      have : pre.length + done.length + 1 - done.length - pre.length = 1 := by omega
      rw [this]; rfl
    have e3 : (splitOn ' ' (strip l))[0]? = some v := by
      rw [splitOn_zero, hl.1]; exact ⟨hl.2.1, Or.inr ⟨e, rfl⟩⟩
    have e4 : (splitOn ' ' (strip l))[1]? = some e := by
      rw [splitOn_one, hl.1]; exact ⟨v, e, rfl, hl.2.1, hl.2.2, Or.inl rfl⟩
    rw [List.length_cons, surfValueLoop]
    simp only [e1, ex_ok_bind, e2, e3, e4, orErr, pyFloat, ha, hb]
    have e5 : done ++ (pre ++ h :: l :: (others ++ rest)) = (done ++ pre ++ [h]) ++ ((l :: others) ++ rest) := by simp
    have e6 : pre.length + done.length + 1 = (done ++ pre ++ [h]).length := by simp; omega
    rw [e5, e6, ih (done ++ pre ++ [h]) (l :: others) (by
      intro x hx
      rcases List.mem_cons.1 hx with rfl | hx
      · exact hls
      · exact ho x hx)]
    simp

private theorem blocks_head {flt : Str → Option F} {ls : List Str} {as bs : List F} (h : SurfBlocks flt ls as bs) (hne : as ≠ []) :
    ∃ h l rest, ls = h :: l :: rest ∧ p!" surface " <+: h := by
  cases h with
  | nil => simp at hne
  | block hh => exact ⟨_, _, _, rfl, hh⟩

/-- A type 2 tally with one value for each of its (at least two) surfaces: value `k` belongs to the `k`-th block of the file, and
    areas and surface numbers are those of the heading. -/
theorem C142_single_values [LinearOrder F] {flt : Str → Option F} {m : F} {enum : List Str → List Str} {t : Tally F} {pre ls : List Str}
    {h l : Str} {rest : List Str} {as bs : List F} {ar sf : List Str} (ht : t.tallyType = '2')
    (hb : SurfBlocks flt ls as bs) (hls : ls = h :: l :: rest)
    (hp : ∀ x ∈ pre, ¬ p!" surface " <+: x) (ha : getType2SurfaceAreas (pre ++ ls) = .ok ar) (hs : getType2SurfaceNumbers (pre ++ ls) = .ok sf)
    (hn : sf.length = as.length) (h2 : 2 ≤ sf.length)
    (hl : ¬ p!"energy" <:+: l ∧ ¬ p!"angle" <:+: l ∧ ¬ p!"time" <:+: l) :
    readTypeSurface flt m enum t (pre ++ ls) = .ok { t with areas := ar, surfaces := sf, result := .items (as.map .num), err := .items (bs.map .num) } := by
  have hh : p!" surface " <+: h := by
    obtain ⟨h', l', r', e, hh⟩ := blocks_head hb (by rintro rfl; rw [List.length_nil] at hn; omega)
    rw [hls] at e
    simp only [List.cons.injEq] at e
    rw [e.1]; exact hh
  have e1 : findLine p!" surface " (pre ++ ls) 9 = .ok pre.length := by
    rw [hls, findLine_eq, findIdx_append]
    · rfl
    · intro y hy
      rw [decide_eq_false_iff_not, take_eq_prefix (show p!" surface ".length = 9 from rfl)]
      exact hp y hy
    · rw [decide_eq_true_eq, take_eq_prefix (show p!" surface ".length = 9 from rfl)]
      exact hh
  have e2 : at' (pre ++ ls) (pre.length + 1) = .ok l := by
    unfold at'
    rw [hls, List.getElem?_append_right (by omega)]
    simp [orErr]
  have e3 := valueLoop hb [] pre hp [] []
  simp only [List.nil_append, List.length_nil] at e3
  have h1 : ¬ t.tallyType = '1' := by rw [ht]; decide
  unfold readTypeSurface
  rw [if_pos ht]
  simp only [ha, hs, ex_ok_bind, ex_pure]
  rw [if_neg h1]
  simp only [e1, ex_ok_bind, e2]
  rw [if_neg (by rw [hasSub_iff]; exact hl.1), if_neg (by rw [hasSub_iff]; exact hl.2.1), if_neg (by rw [hasSub_iff]; exact hl.2.2),
    if_pos (by omega), hn, e3]
  rfl

example : SurfBlocks pyNat [p!" surface  3", p!"      10 1", p!" surface  4", p!"      20 2", p!"x"] [10, 20] [1, 2] :=
  .block (v := p!"10") (e := p!"1") (others := []) (by decide) (by decide +kernel) (by decide +kernel) (by decide +kernel) (by decide) (by decide)
    (.block (v := p!"20") (e := p!"2") (others := [p!"x"]) (rest := []) (by decide) (by decide +kernel) (by decide +kernel) (by decide +kernel)
      (by decide) (by decide) .nil)

/-! ### C143: single results of cells -/

/-- The line behind the first line that contains the number of the cell between blanks. -/
def ValueLine (lines : List Str) (cell l : Str) : Prop :=
  ∃ i, Spec.IsLeast (fun j => ∃ x, lines[j]? = some x ∧ p!" " ++ cell ++ p!" " <:+: x) i ∧ lines[i + 1]? = some l

/-- The line of a cell begins with value and error. -/
def CellValue (flt : Str → Option F) (lines : List Str) (cell : Str) (a b : F) : Prop :=
  ∃ l v e ws, ValueLine lines cell l ∧ ¬ p!"time" <:+: l ∧ Spec.IsWords l (v :: e :: ws) ∧ p!"total" ∉ v :: e :: ws ∧
    flt v = some a ∧ flt e = some b

private theorem valueLine_at {lines : List Str} {cell l : Str} (h : ValueLine lines cell l) :
    ∃ i, findInd lines (p!" " ++ cell ++ p!" ") = .ok i ∧ at' lines (i + 1) = .ok l := by
  obtain ⟨i, h1, h2⟩ := h
  refine ⟨i, ?_, orErr_ok_iff.2 h2⟩
  rw [findInd_eq, orErr_ok_iff, findIdx?_isLeast]
  simpa only [hasSub_iff] using h1

private theorem step_value [LinearOrder F] {flt : Str → Option F} {lines : List Str} {t : Tally F} {cell : Str} {a b : F} {xs ys : List (Item F)}
    (h : CellValue flt lines cell a b) (hx : t.result = .items xs) (hy : t.err = .items ys) :
    cellTallyStep flt false (lines, t) cell =
      .ok (lines, { t with result := .items (xs ++ [.num a]), err := .items (ys ++ [.num b]) }) := by
  obtain ⟨l, v, e, ws, hv, hnt, hw, htot, ha, hb⟩ := h
  obtain ⟨i, e1, e2⟩ := valueLine_at hv
  have hne : v ≠ [] := (mem_splitWs (s := l) (w := v) (by rw [isWords_iff.1 hw]; simp)).1
  have e3 : splitOn ' ' (join p!" " (splitWs l)) = v :: e :: ws := by
    have := splitOn_stringCleaner (t := l) (by rw [isWords_iff.1 hw]; simp)
    rw [stringCleaner_eq] at this
    rw [this, isWords_iff.1 hw]
  unfold cellTallyStep
  simp only [e1, ex_ok_bind, e2]
  rw [if_neg (by rw [hasSub_iff]; exact hnt)]
  simp only [Bool.false_eq_true, if_false, e3]
  rw [if_neg (by rintro (h | h); exact htot h; exact hne h)]
  simp only [List.getElem?_cons_zero, List.getElem?_cons_succ, orErr, pyFloat, ha, hb, hx, hy, Res.append, ex_ok_bind, ex_pure]

/-- The heading of the cell list: volumes for type 4, masses for others. -/
def CellHeading (ty : Char) (lines : List Str) (i : Nat) : Prop :=
  ty = '4' ∧ Spec.IsLeast (fun j => ∃ l, lines[j]? = some l ∧ p!"           volumes " <+: l) i ∨
  ty ≠ '4' ∧ Spec.IsLeast (fun j => ∃ l, lines[j]? = some l ∧ p!"           masses " <+: l) i

/-- A cell tally with single values: one result for each cell, in the order of the cells. -/
theorem C143_values_partial [LinearOrder F] {flt : Str → Option F} {t : Tally F} {pre lines cells vols : List Str} {i : Nat} {vals : List (F × F)} {l0 : Str}
    (hi : CellHeading t.tallyType (pre ++ lines) i)
    (hc : getCellData (pre ++ lines) i = .ok (cells, vols, pre.length)) (hne : cells ≠ [])
    (h0 : ValueLine lines (cells.headD []) l0) (h0e : ¬ p!"energy" <:+: l0)
    (hv : List.Forall₂ (fun c v => CellValue flt lines c v.1 v.2) cells vals) (hx : t.result = .items []) (hy : t.err = .items []) :
    readTypeCell flt t (pre ++ lines) = .ok
      { t with cells := cells, vols := vols, result := .items (vals.map (fun v => .num v.1)), err := .items (vals.map (fun v => .num v.2)) } := by
  have hf : ∀ (cs : List Str) (vs : List (F × F)) (t : Tally F) (xs ys : List (Item F)),
      List.Forall₂ (fun c v => CellValue flt lines c v.1 v.2) cs vs → t.result = .items xs → t.err = .items ys →
      cs.foldlM (cellTallyStep flt false) (lines, t) = .ok (lines,
        { t with result := .items (xs ++ vs.map (fun v => .num v.1)), err := .items (ys ++ vs.map (fun v => .num v.2)) }) := by
    intro cs vs t xs ys h
    induction h generalizing t xs ys with
    | nil => intro hx hy; simp only [List.foldlM_nil, ex_pure, List.map_nil, List.append_nil, ← hx, ← hy]
    | cons hcv _ ih =>
      intro hx hy
      rw [List.foldlM_cons, step_value hcv hx hy, ex_ok_bind, ih _ _ _ rfl rfl]
      simp
  obtain ⟨c0, cs, rfl⟩ := List.exists_cons_of_ne_nil hne
  obtain ⟨j, e1, e2⟩ := valueLine_at h0
  unfold readTypeCell
  extract_lets jp
  have key : jp i = .ok
      { t with cells := c0 :: cs, vols := vols, result := .items (vals.map (fun v => .num v.1)), err := .items (vals.map (fun v => .num v.2)) } := by
    simp only [jp]
    simp only [ex_ok_bind, hc, List.drop_left, List.getElem?_cons_zero, orErr]
    simp only [List.headD_cons] at e1
    simp only [e1, ex_ok_bind, e2]
    rw [if_neg (by rw [hasSub_iff]; exact h0e), hf _ vals { t with cells := c0 :: cs, vols := vols } [] [] hv hx hy]
    simp only [ex_ok_bind, ex_pure, List.nil_append]
  rcases hi with ⟨ht, hi⟩ | ⟨ht, hi⟩
  · rw [if_pos ht, (findLine_prefix (show p!"           volumes ".length = 19 from rfl)).2 hi]
    exact key
  · rw [if_neg ht, (findLine_prefix (show p!"           masses ".length = 18 from rfl)).2 hi]
    exact key

/-- A cell whose line is blank, or contains the word "total", is skipped without a trace: the results of the cells behind it are
    attached to the wrong cells. -/
theorem C143_skipped_violated [LinearOrder F] (flt : Str → Option F) {t : Tally F} {lines : List Str} {cell l : Str} {ws : List Str}
    (hv : ValueLine lines cell l) (hnt : ¬ p!"time" <:+: l) (hw : Spec.IsWords l ws) (h : ws = [] ∨ p!"total" ∈ ws) :
    cellTallyStep flt false (lines, t) cell = .ok (lines, t) := by
  obtain ⟨i, e1, e2⟩ := valueLine_at hv
  unfold cellTallyStep
  simp only [e1, ex_ok_bind, e2]
  rw [if_neg (by rw [hasSub_iff]; exact hnt)]
  simp only [Bool.false_eq_true, if_false]
  rw [if_pos]
  · rfl
  · rcases h with rfl | h
    · right
      rw [isWords_iff.1 hw]; decide +kernel
    · left
      have := splitOn_stringCleaner (t := l) (by rw [isWords_iff.1 hw]; rintro rfl; simp at h)
      rw [stringCleaner_eq] at this
      rw [this, isWords_iff.1 hw]; exact h

example : (readTypeCell pyNat { t0 with tallyType := '4' } [p!"           volumes ", p!"     cell:    1   2", p!"   3 4", p!" ",
    p!" cell  1 ", p!"   10 1", p!" cell  2 ", p!"    20 2"]).map (fun t => (t.cells, t.result)) =
    .ok ([p!"1", p!"2"], .items [.num 10, .num 20]) := by decide +kernel

end Props
