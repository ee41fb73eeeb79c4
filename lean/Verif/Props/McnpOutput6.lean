/- Properties C162-C167 of mcnp_output_reader.py: print tables, surface lists, angle bins, statistical tests, whole files. -/
import Verif.Model.McnpOutput
import Verif.Proofs.McnpOutput
import Verif.Proofs.OutputUtilities
import Verif.Props.McnpOutput

set_option linter.unusedSimpArgs false

namespace Props
open Py NeutUtilities McnpOutput Spec
variable {F : Type}

private theorem findLine_at {text : Str} {pre rest : List Str} {l : Str} {k : Nat} (hk : text.length = k) (hp : ∀ x ∈ pre, ¬ text <+: x)
    (hl : text <+: l) : findLine text (pre ++ l :: rest) k = .ok pre.length := by
  rw [findLine_prefix hk]
  refine ⟨⟨l, by simp, hl⟩, ?_⟩
  rintro j hj ⟨x, hx, h⟩
  rw [List.getElem?_append_left hj] at hx
  exact hp x (List.mem_of_getElem? hx) h

private theorem blank_iff {s : Str} : Blank s ↔ splitWs s = [] := by
  rw [← isWords_iff]
  constructor
  · exact .blank
  · intro h; cases h; assumption

private theorem cleaner_nil {s : Str} : stringCleaner s = [] ↔ Blank s := by
  rw [blank_iff, stringCleaner_eq]
  constructor
  · intro h
    by_contra hne
    have h1 := splitWs_rejoin' s
    rw [h] at h1
    exact hne (by rw [← h1]; rfl)
  · intro h; rw [h]; rfl
where splitWs_rejoin' (l : Str) : splitWs (join [' '] (splitWs l)) = splitWs l := splitWs_join (fun _ hw => mem_splitWs hw)

/-! ### C162 -/

/-- The nine columns of print table 101. -/
def table101Names : List Str :=
  [p!"particle_id", p!"particle_symbol", p!"particle_name", p!"cutoff_energy", p!"max_energy", p!"smallest_table_max",
   p!"largest_table_max", p!"always_table_below", p!"always_model_above"]

private theorem foldl_max_const {l : List Nat} {n a : Nat} (hl : ∀ x ∈ l, x = n) (ha : a ≤ n) (hne : l ≠ [] ∨ a = n) : l.foldl max a = n := by
  induction l generalizing a with
  | nil => rcases hne with h | h
           · exact absurd rfl h
           · exact h
  | cons x l ih =>
    rw [List.foldl_cons]
    have hx := hl x (by simp)
    exact ih (fun y hy => hl y (by simp [hy])) (by omega) (.inr (by omega))

theorem foldl_max_ge (l : List Nat) (a : Nat) : a ≤ l.foldl max a ∧ ∀ x ∈ l, x ≤ l.foldl max a := by
  induction l generalizing a with
  | nil => simp
  | cons y l ih =>
    obtain ⟨h1, h2⟩ := ih (max a y)
    rw [List.foldl_cons]
    refine ⟨le_trans (le_max_left _ _) h1, ?_⟩
    intro x hx
    rcases List.mem_cons.1 hx with rfl | hx
    · exact le_trans (le_max_right _ _) h1
    · exact h2 x hx

private theorem takeWhile_clean {rows tail : List Str} (hr : ∀ r ∈ rows, ¬ Blank r) (ht : ∀ b ∈ tail.head?, Blank b) :
    ((rows ++ tail).map stringCleaner).takeWhile (fun l => decide (l ≠ [])) = rows.map stringCleaner := by
  induction rows with
  | nil =>
    cases tail with
    | nil => rfl
    | cons b tail =>
      have := ht b (by simp)
      rw [List.nil_append, List.map_cons, List.takeWhile_cons, if_neg (by simpa using cleaner_nil.2 this)]
      rfl
  | cons r rows ih =>
    rw [List.cons_append, List.map_cons, List.takeWhile_cons, if_pos, ih (fun x hx => hr x (by simp [hx]))]
    · rfl
    · have := hr r (by simp)
      rw [← cleaner_nil] at this
      simpa using this

private theorem rows_words {rows : List Str} (hr : ∀ r ∈ rows, ¬ Blank r) :
    (rows.map stringCleaner).map (splitOn ' ') = rows.map splitWs := by
  rw [List.map_map]
  apply List.map_congr_left
  intro r h
  have := hr r h
  rw [blank_iff] at this
  exact splitOn_stringCleaner this

/-- A print table 101: six header lines, the rows, and (after a blank line and anything else) the line of stars. -/
structure Table101 (lines : List Str) (start : Nat) (rows : List Str) : Prop where
  split : ∃ hdr tail star rest, lines.drop start = hdr ++ (rows ++ (tail ++ star :: rest)) ∧ hdr.length = 6 ∧ p!" *******" <+: star ∧
    (∀ l ∈ hdr ++ (rows ++ tail), ¬ p!" *******" <+: l) ∧ (∀ b ∈ tail.head?, Blank b)
  full : ∀ r ∈ rows, ¬ Blank r

theorem table101_eq {lines : List Str} {start : Nat} {rows : List Str} (h : Table101 lines start rows) :
    readTable101 lines start = frame (rows.map splitWs) table101Columns := by
  obtain ⟨⟨hdr, tail, star, rest, he, hl, hs, hn, ht⟩, hf⟩ := h
  unfold readTable101
  have e1 : lines.drop start = (hdr ++ (rows ++ tail)) ++ star :: rest := by rw [he]; simp
  rw [e1, findLine_at (k := 8) rfl hn hs]
  simp only [ex_ok_bind]
  have e2 : slice lines start (start + (hdr ++ (rows ++ tail)).length) = hdr ++ (rows ++ tail) := by
    unfold slice
    rw [List.drop_take, e1, Nat.add_sub_cancel_left]
    exact List.take_left' rfl
  rw [e2, List.map_append, List.drop_append_of_le_length (by simp [hl]), List.drop_of_length_le (by simp [hl])]
  unfold table101Rows
  rw [List.nil_append, takeWhile_clean hf ht, rows_words hf]

/-- Every row of the table, word by word, under the nine names. -/
theorem C162_table101 {lines : List Str} {start : Nat} {rows : List Str} (h : Table101 lines start rows)
    (h9 : ∀ r ∈ rows, ∃ ws, IsWords r ws ∧ ws.length = 9) :
    ∃ rs, readTable101 lines start = .ok (table101Names, rs) ∧ List.Forall₂ IsWords rows rs := by
  refine ⟨rows.map splitWs, ?_, ?_⟩
  · rw [table101_eq h]
    unfold frame
    rw [if_pos]
    · rfl
    · by_cases hr : rows = []
      · left; rw [hr]; rfl
      · right
        apply foldl_max_const _ (Nat.zero_le _) (.inl (by simpa using hr))
        intro n hn
        simp only [List.map_map, List.mem_map, Function.comp_apply] at hn
        obtain ⟨r, hr', rfl⟩ := hn
        obtain ⟨ws, hw, hl⟩ := h9 r hr'
        rw [splitWs_of_isWords hw, hl]
        rfl
  · rw [List.forall₂_map_right_iff]
    exact List.forall₂_same.2 (fun r _ => isWords_splitWs r)

/-- A row with more words than columns, and a table that is never ended, are refused. -/
theorem C162_errors {lines : List Str} {start : Nat} :
    (∀ rows, Table101 lines start rows → (∃ r ∈ rows, ∃ ws, IsWords r ws ∧ 9 < ws.length) → readTable101 lines start = .error .ValueError) ∧
    ((∀ l ∈ lines.drop start, ¬ p!" *******" <+: l) → readTable101 lines start = .error .ValueError) := by
  constructor
  · rintro rows h ⟨r, hr, ws, hw, hl⟩
    rw [table101_eq h]
    unfold frame
    rw [if_neg]
    rintro (h1 | h1)
    · simp only [List.map_eq_nil_iff] at h1
      subst h1
      cases hr
    · have := (foldl_max_ge ((rows.map splitWs).map List.length) 0).2 ws.length
        (by simp only [List.map_map, List.mem_map, Function.comp_apply]; exact ⟨r, hr, by rw [splitWs_of_isWords hw]⟩)
      rw [h1] at this
      have h9 : table101Columns.length = 9 := rfl
      omega
  · intro h
    unfold readTable101
    rw [(findLine_none (text := p!" *******") (k := 8) rfl).2 ⟨rfl, h⟩]
    rfl

example : readTable101 [p!"x", p!"1 print table 101", p!"", p!"", p!"", p!"", p!"", p!"  1 n  neutron 0.0 100. 20.0 150. 20. 20. ", p!" ", p!"a b", p!" ********"] 1
    = .ok (table101Names, [[p!"1", p!"n", p!"neutron", p!"0.0", p!"100.", p!"20.0", p!"150.", p!"20.", p!"20."]]) := by decide +kernel

/-! ### C163 -/

/-- Print table 60: two lines, the two header lines, a line, the rows, three lines, then the line of the minimum source weight. -/
structure Table60 (lines : List Str) (start : Nat) (w1 w2 : List Str) (rows : List Str) : Prop where
  split : ∃ before a b h1 h2 c t1 t2 t3 term rest, lines = before ++ ([a, b, h1, h2, c] ++ (rows ++ [t1, t2, t3])) ++ term :: rest ∧
    before.length = start ∧ IsWords h1 w1 ∧ IsWords h2 w2 ∧ p!"    minimum source weight" <+: term ∧
    (∀ l ∈ before ++ ([a, b, h1, h2, c] ++ (rows ++ [t1, t2, t3])), ¬ p!"    minimum source weight" <+: l)

/-- The table: the names of the second header line, those of the densities and of the importance completed with the first; of every
    row the words after the first. -/
theorem C163_table60 {lines : List Str} {start : Nat} {rows : List Str} {c1 c2 c3 c4 cl d1 d2 dl : Str} {dm cm : List Str}
    (h : Table60 lines start (d1 :: d2 :: (dm ++ [dl])) (c1 :: c2 :: c3 :: c4 :: (cm ++ [cl])) rows)
    (hw : ∀ r ∈ rows, ∃ ws, IsWords r ws ∧ ws.length = cm.length + 6) :
    ∃ rs, readTable60 lines start = .ok (c1 :: c2 :: (d1 ++ p!" " ++ c3) :: (d2 ++ p!" " ++ c4) :: (cm ++ [dl ++ p!" " ++ cl]), rs) ∧
      List.Forall₂ (fun r ws => ∃ w, IsWords r (w :: ws)) rows rs := by
  obtain ⟨before, a, b, h1, h2, c, t1, t2, t3, term, rest, he, hb, hw1, hw2, ht, hn⟩ := h.split
  have hfind : findLine p!"    minimum source weight" lines 25 = .ok (start + (rows.length + 8)) := by
    rw [he, findLine_at (k := 25) rfl hn ht]
    simp [hb]
  have hsl : slice lines start (start + (rows.length + 8)) = [a, b, h1, h2, c] ++ (rows ++ [t1, t2, t3]) := by
    unfold slice
    rw [List.drop_take, he, List.append_assoc, List.drop_append_of_le_length (by omega), List.drop_of_length_le (by omega), List.nil_append,
      List.take_append_of_le_length (by simp)]
    apply List.take_of_length_le
    simp
  have s1 : splitOn ' ' (stringCleaner h1) = d1 :: d2 :: (dm ++ [dl]) := by
    rw [← splitWs_of_isWords hw1]
    exact splitOn_stringCleaner (by rw [splitWs_of_isWords hw1]; simp)
  have s2 : splitOn ' ' (stringCleaner h2) = c1 :: c2 :: c3 :: c4 :: (cm ++ [cl]) := by
    rw [← splitWs_of_isWords hw2]
    exact splitOn_stringCleaner (by rw [splitWs_of_isWords hw2]; simp)
  have hsi : sliceI (([a, b, h1, h2, c] ++ (rows ++ [t1, t2, t3])).map stringCleaner) 5 (-3) = rows.map stringCleaner := by
    unfold sliceI slice clamp
    simp only [List.map_append, List.length_append, List.length_map, List.length_cons, List.length_nil]
    rw [if_pos (by decide), if_neg (by decide)]
    have e1 : min (5 : Int).toNat (0 + 1 + 1 + 1 + 1 + 1 + (rows.length + (0 + 1 + 1 + 1))) = 5 := by
      show min 5 _ = 5
      omega
    have e2 : (0 + 1 + 1 + 1 + 1 + 1 + (rows.length + (0 + 1 + 1 + 1))) - min (-(-3) : Int).toNat (0 + 1 + 1 + 1 + 1 + 1 + (rows.length + (0 + 1 + 1 + 1))) = 5 + rows.length := by
      show _ - min 3 _ = _
      omega
    rw [e1, e2, List.drop_take]
    simp
  have hgl : ∀ (l : List Str) (x : Str), getI (l ++ [x]) (-1) = some x := by
    intro l x
    unfold getI
    rw [if_neg (by decide), if_pos (by simp)]
    simp
  have hset : ∀ (l : List Str) (x y : Str), setAt (l ++ [x]) (-1) y = some (l ++ [y]) := by
    intro l x y
    unfold setAt
    simp only [List.length_append, List.length_cons, List.length_nil]
    rw [if_pos (by decide : (-1 : Int) < 0)]
    have : ((-1 : Int) + ((l.length + (0 + 1) : Nat) : Int)) = (l.length : Int) := by push_cast; omega
    rw [this, if_pos (by constructor <;> push_cast <;> omega)]
    simp
  have g1 : getI (d1 :: d2 :: (dm ++ [dl])) (-1) = some dl := hgl (d1 :: d2 :: dm) dl
  have g2 : getI (c1 :: c2 :: (d1 ++ p!" " ++ c3) :: (d2 ++ p!" " ++ c4) :: (cm ++ [cl])) (-1) = some cl :=
    hgl (c1 :: c2 :: (d1 ++ p!" " ++ c3) :: (d2 ++ p!" " ++ c4) :: cm) cl
  have g3 : setAt (c1 :: c2 :: (d1 ++ p!" " ++ c3) :: (d2 ++ p!" " ++ c4) :: (cm ++ [cl])) (-1) (dl ++ p!" " ++ cl) =
      some (c1 :: c2 :: (d1 ++ p!" " ++ c3) :: (d2 ++ p!" " ++ c4) :: (cm ++ [dl ++ p!" " ++ cl])) :=
    hset (c1 :: c2 :: (d1 ++ p!" " ++ c3) :: (d2 ++ p!" " ++ c4) :: cm) cl _
  have hs2 : setAt (c1 :: c2 :: c3 :: c4 :: (cm ++ [cl])) 2 (d1 ++ p!" " ++ c3) = some (c1 :: c2 :: (d1 ++ p!" " ++ c3) :: c4 :: (cm ++ [cl])) := by
    simp only [setAt]
    rw [if_neg (by decide : ¬ ((2 : Int) < 0)), if_pos (by constructor; decide; simp; omega)]
    rfl
  have hs3 : setAt (c1 :: c2 :: (d1 ++ p!" " ++ c3) :: c4 :: (cm ++ [cl])) 3 (d2 ++ p!" " ++ c4) =
      some (c1 :: c2 :: (d1 ++ p!" " ++ c3) :: (d2 ++ p!" " ++ c4) :: (cm ++ [cl])) := by
    simp only [setAt]
    rw [if_neg (by decide : ¬ ((3 : Int) < 0)), if_pos (by constructor; decide; simp; omega)]
    rfl
  have hdrop : (rows.map stringCleaner).map (fun l => (splitOn ' ' l).drop 1) = rows.map (fun r => (splitWs r).drop 1) := by
    rw [List.map_map]
    apply List.map_congr_left
    intro r _
    exact splitOn_stringCleaner_drop r 1 (by decide)
  refine ⟨rows.map (fun r => (splitWs r).drop 1), ?_, ?_⟩
  · unfold readTable60
    rw [hfind]
    simp only [ex_ok_bind, hsl]
    rw [hsi, hdrop]
    simp only [at', orErr, List.map_cons, List.map_append, List.cons_append, List.getElem?_cons_zero, List.getElem?_cons_succ, ex_ok_bind, s1, s2, g1, g2, g3, hs2, hs3]
    unfold frame
    rw [if_pos]
    by_cases hr : rows = []
    · left; rw [hr]; rfl
    · right
      apply foldl_max_const _ (Nat.zero_le _) (.inl (by simpa using hr))
      intro n hn
      simp only [List.map_map, List.mem_map, Function.comp_apply] at hn
      obtain ⟨r, hr', rfl⟩ := hn
      obtain ⟨ws, hw, hl⟩ := hw r hr'
      rw [splitWs_of_isWords hw, List.length_drop, hl]
      simp
  · rw [List.forall₂_map_right_iff]
    refine List.forall₂_same.2 (fun r hr => ?_)
    obtain ⟨ws, hw, hl⟩ := hw r hr
    cases ws with
    | nil => simp at hl
    | cons w ws => exact ⟨w, by rw [splitWs_of_isWords hw]; exact hw⟩

example : readTable60 [p!"1cells print table 60", p!"", p!"  atom gram neutron", p!" cell mat density density volume importance", p!"", p!" 1 1 2 3.0 4.0 5.0 1.0", p!"", p!" total", p!"", p!"    minimum source weight = 1"] 0
    = .ok ([p!"cell", p!"mat", p!"atom density", p!"gram density", p!"volume", p!"neutron importance"], [[p!"1", p!"2", p!"3.0", p!"4.0", p!"5.0", p!"1.0"]]) := by decide +kernel

/-! ### C164 -/

private theorem strip_colon (x y : Str) : strip (x ++ ':' :: y) = lstrip x ++ ':' :: rstrip y := by
  have hc : isSpace ':' = false := by decide
  have h1 : lstrip (x ++ ':' :: y) = lstrip x ++ ':' :: y := by
    unfold lstrip
    induction x with
    | nil => simp [List.dropWhile_cons, hc]
    | cons a x ih =>
      rw [List.cons_append, List.dropWhile_cons, List.dropWhile_cons]
      split
      · exact ih
      · rfl
  unfold strip
  rw [h1]
  generalize lstrip x = u
  unfold rstrip List.rdropWhile
  simp only [List.reverse_append, List.reverse_cons, List.append_assoc]
  have h2 : ∀ w v : Str, List.dropWhile isSpace (w ++ ([':'] ++ v)) = List.dropWhile isSpace w ++ ([':'] ++ v) := by
    intro w v
    induction w with
    | nil => simp [List.dropWhile_cons, hc]
    | cons a w ih =>
      rw [List.cons_append, List.dropWhile_cons, List.dropWhile_cons]
      split
      · exact ih
      · rfl
  rw [h2]
  simp

/-- A line with the edges of an angle bin; `a` is the upper edge, the last word but one. -/
def AngleLine (flt : Str → Option F) (l : Str) (a : F) : Prop :=
  p!" angle  bin" <+: l ∧ ∃ x y ws w unit, l = x ++ ':' :: y ∧ ':' ∉ x ∧ ':' ∉ y ∧ IsWords y (ws ++ [w, unit]) ∧ flt w = some a

private theorem processAng_ok {flt : Str → Option F} {l : Str} {a : F} (h : AngleLine flt l a) : processAngString flt l = .ok a := by
  obtain ⟨_, x, y, ws, w, unit, rfl, hx, hy, hw, hf⟩ := h
  unfold processAngString
  have h1 : (splitOn ':' (strip (x ++ ':' :: y)))[1]? = some (rstrip y) := by
    rw [strip_colon, splitOn_one]
    refine ⟨lstrip x, rstrip y, rfl, fun h => hx ?_, ?_, .inl rfl⟩
    · obtain ⟨a, ha, _⟩ := lstrip_decomp x
      rw [ha]; simp [h]
    · intro h
      obtain ⟨b, hb, _⟩ := rstrip_decomp y
      exact hy (by rw [hb]; simp [h])
  rw [h1]
  simp only [orErr, ex_ok_bind]
  rw [splitWs_rstrip, splitWs_of_isWords hw, getI_snd_last]
  simp only [ex_ok_bind, pyFloat, hf, orErr]

/-- A line with energy, result and relative error, three and one blanks apart. -/
def EnergyRow (flt : Str → Option F) (l : Str) (e : F × F × F) : Prop :=
  ∃ p a b c q, l = p ++ (a ++ p!"   " ++ b ++ p!" " ++ c) ++ q ∧ Blank p ∧ Blank q ∧ IsWord a ∧ IsWord b ∧ IsWord c ∧
    flt a = some e.1 ∧ flt b = some e.2.1 ∧ flt c = some e.2.2

private theorem strip_core {p c q : Str} (hp : Blank p) (hq : Blank q) (hne : c ≠ []) (hh : ∀ x ∈ c.head?, isSpace x = false)
    (hl : ∀ x ∈ c.getLast?, isSpace x = false) : strip (p ++ c ++ q) = c := by
  rw [strip_append_blank hq]
  have h1 : lstrip (p ++ c) = c := by
    unfold lstrip
    induction p with
    | nil =>
      cases c with
      | nil => rfl
      | cons x c => rw [List.nil_append, List.dropWhile_cons, if_neg]; simpa using hh x (by simp)
    | cons a p ih =>
      rw [List.cons_append, List.dropWhile_cons, if_pos (hp a (by simp))]
      exact ih (fun x hx => hp x (by simp [hx]))
  unfold strip
  rw [h1, rstrip_eq_self_iff]
  intro h
  exact hl _ (List.getLast?_eq_some_getLast h)

theorem energyRow_ok {flt : Str → Option F} {l : Str} {e : F × F × F} (h : EnergyRow flt l e) : energyLine flt l = .ok e := by
  obtain ⟨p, a, b, c, q, rfl, hp, hq, ha, hb, hc, h1, h2, h3⟩ := h
  have nosp : ∀ {w : Str}, IsWord w → ∀ x ∈ w, (x == ' ') = false := by
    intro w hw x hx
    have := hw.2 x hx
    simp only [beq_eq_false_iff_ne]
    rintro rfl
    simp [isSpace_space] at this
  have hs : strip (p ++ (a ++ p!"   " ++ b ++ p!" " ++ c) ++ q) = a ++ p!"   " ++ b ++ p!" " ++ c := by
    apply strip_core hp hq
    · intro h; exact hc.1 (by simpa using (List.append_eq_nil_iff.1 h).2)
    · intro x hx
      obtain ⟨y, ys, rfl⟩ := List.exists_cons_of_ne_nil ha.1
      simp at hx
      exact ha.2 x (by simp [hx])
    · intro x hx
      rw [List.getLast?_append_of_ne_nil _ hc.1] at hx
      exact hc.2 x (List.mem_of_mem_getLast? hx)
  have hsp : splitOn ' ' (a ++ p!"   " ++ b ++ p!" " ++ c) = [a, [], [], b, c] := by
    unfold splitOn
    have e1 : a ++ p!"   " ++ b ++ p!" " ++ c = a ++ ' ' :: (' ' :: (' ' :: (b ++ ' ' :: c))) := by simp
    rw [e1, splitP_append_sep (by decide), splitP_of_not_mem (nosp ha), splitP_cons_pos (by decide), splitP_cons_pos (by decide),
      splitP_append_sep (by decide), splitP_of_not_mem (nosp hb), splitP_of_not_mem (nosp hc)]
    rfl
  unfold energyLine
  rw [hs, hsp]
  simp only [orErr, List.getElem?_cons_zero, List.getElem?_cons_succ, ex_ok_bind, pyFloat, h1, h2, h3, ex_pure]

/-- An angle bin of a surface tally: its line, lines of no meaning, the energy header, the rows, the total. -/
structure AngBlock (F : Type) where
  head : Str
  angle : F
  mid : List Str
  rows : List (Str × F × F × F)
  total : Str
  after : List Str

/-- A line the reader passes over outside the rows. -/
def AngInert (l : Str) : Prop := ¬ p!" angle  bin" <+: l ∧ ¬ p!"      total  " <+: l ∧ l ≠ p!"      energy   "

/-- The block is well formed. -/
structure AngBlock.WF (flt : Str → Option F) (b : AngBlock F) : Prop where
  head : AngleLine flt b.head b.angle
  mid : ∀ l ∈ b.mid, AngInert l
  rows : ∀ r ∈ b.rows, AngInert r.1 ∧ EnergyRow flt r.1 r.2
  total : p!"      total  " <+: b.total
  after : ∀ l ∈ b.after, AngInert l

/-- Its lines. -/
def AngBlock.lines (b : AngBlock F) : List Str := b.head :: (b.mid ++ p!"      energy   " :: (b.rows.map (·.1) ++ b.total :: b.after))

private theorem foldlM_append_ok {σ : Type} {f : σ → Str → Except Err σ} {a b : List Str} {s s' : σ} (h : a.foldlM f s = .ok s') :
    (a ++ b).foldlM f s = b.foldlM f s' := by
  rw [List.foldlM_append, h, ex_ok_bind]

private theorem takeAng {l : Str} : l.take 11 = p!" angle  bin" ↔ p!" angle  bin" <+: l := take_eq_prefix (k := 11) rfl

private theorem takeTot {l : Str} : l.take 13 = p!"      total  " ↔ p!"      total  " <+: l := take_eq_prefix (k := 13) rfl

private theorem angStep_eq (flt : Str → Option F) (st : AngSt F) (l : Str) (h : ¬ p!" angle  bin" <+: l) (h' : ¬ p!"      total  " <+: l) :
    angStep flt st l = if st.inRes then (energyLine flt l >>= fun r => .ok { st with cur := st.cur ++ [r] })
      else if l = p!"      energy   " then .ok { st with inRes := true } else .ok st := by
  rw [← takeAng] at h
  rw [← takeTot] at h'
  simp only [angStep, if_neg h, if_neg h', ex_pure, ex_ok_bind]

private theorem ang_inert {flt : Str → Option F} {st : AngSt F} {l : Str} (h : AngInert l) (hi : st.inRes = false) : angStep flt st l = .ok st := by
  obtain ⟨h1, h2, h3⟩ := h
  rw [angStep_eq flt st l h1 h2, if_neg (by simp [hi]), if_neg h3]

private theorem ang_inerts {flt : Str → Option F} {st : AngSt F} {ls : List Str} (h : ∀ l ∈ ls, AngInert l) (hi : st.inRes = false) :
    ls.foldlM (angStep flt) st = .ok st := by
  induction ls with
  | nil => rfl
  | cons l ls ih =>
    rw [List.foldlM_cons, ang_inert (h l (by simp)) hi, ex_ok_bind]
    exact ih (fun x hx => h x (by simp [hx]))

private theorem ang_rows {flt : Str → Option F} {st : AngSt F} {rows : List (Str × F × F × F)} (h : ∀ r ∈ rows, AngInert r.1 ∧ EnergyRow flt r.1 r.2)
    (hi : st.inRes = true) : (rows.map (·.1)).foldlM (angStep flt) st = .ok { st with cur := st.cur ++ rows.map (·.2) } := by
  induction rows generalizing st with
  | nil => simp [ex_pure, List.foldlM_nil]
  | cons r rows ih =>
    obtain ⟨⟨h1, h2, h3⟩, h4⟩ := h r (by simp)
    have hstep : angStep flt st r.1 = .ok { st with cur := st.cur ++ [r.2] } := by
      rw [angStep_eq flt st r.1 h1 h2, if_pos hi, energyRow_ok h4]
      rfl
    rw [List.map_cons, List.foldlM_cons, hstep, ex_ok_bind]
    have := ih (st := { st with cur := st.cur ++ [r.2] }) (fun x hx => h x (by simp [hx])) hi
    rw [this]
    simp

private theorem ang_head {flt : Str → Option F} {st : AngSt F} {l : Str} {a : F} (h : AngleLine flt l a) (hi : st.inRes = false) :
    angStep flt st l = .ok { st with angles := st.angles ++ [a] } := by
  have h1 := h.1
  have h0 := takeAng.2 h1
  have h2 : ¬ l.take 13 = p!"      total  " := by
    obtain ⟨t, rfl⟩ := h1
    simp
  have h3 : l ≠ p!"      energy   " := by
    obtain ⟨t, rfl⟩ := h1
    simp
  simp only [angStep, if_pos h0, if_neg h2, processAng_ok h, ex_pure, ex_ok_bind, hi, if_neg h3, Bool.false_eq_true, if_false]

private theorem ang_energy {flt : Str → Option F} {st : AngSt F} (hi : st.inRes = false) :
    angStep flt st p!"      energy   " = .ok { st with inRes := true } := by
  rw [angStep_eq flt st _ (by decide) (by decide), if_neg (by simp [hi]), if_pos rfl]

private theorem ang_total {flt : Str → Option F} {st : AngSt F} {l : Str} (h : p!"      total  " <+: l) :
    angStep flt st l = .ok { st with inRes := false, eng := some (st.cur.map (·.1)), resDf := st.resDf ++ [st.cur.map (·.2.1)], errDf := st.errDf ++ [st.cur.map (·.2.2)], cur := [] } := by
  have h0 := takeTot.2 h
  have h1 : ¬ l.take 11 = p!" angle  bin" := by
    obtain ⟨t, rfl⟩ := h
    simp
  have h3 : l ≠ p!"      energy   " := by
    obtain ⟨t, rfl⟩ := h
    simp
  simp only [angStep, if_neg h1, if_pos h0, ex_pure, ex_ok_bind, Bool.false_eq_true, if_false, if_neg h3]

private theorem ang_block {flt : Str → Option F} {st : AngSt F} {b : AngBlock F} (h : b.WF flt) (hi : st.inRes = false) (hc : st.cur = []) :
    b.lines.foldlM (angStep flt) st = .ok ⟨st.angles ++ [b.angle], [], st.resDf ++ [b.rows.map (·.2.2.1)], st.errDf ++ [b.rows.map (·.2.2.2)], some (b.rows.map (·.2.1)), false⟩ := by
  unfold AngBlock.lines
  obtain ⟨ang, cur, rd, ed, eng, inr⟩ := st
  simp only at hi hc
  subst hi hc
  rw [List.foldlM_cons, ang_head h.head rfl, ex_ok_bind, foldlM_append_ok (ang_inerts h.mid rfl), List.foldlM_cons, ang_energy rfl, ex_ok_bind,
    foldlM_append_ok (ang_rows h.rows rfl), List.foldlM_cons, ang_total h.total, ex_ok_bind, ang_inerts h.after rfl]
  simp [List.map_map, Function.comp_def]

/-- The angle bins from −1 up, for every bin its results and errors in the order of the file, and the energies of the last bin. -/
theorem C164_angles {flt : Str → Option F} {minusOne : F} {t : Tally F} {pre : List Str} {blocks : List (AngBlock F)}
    (hp : ∀ l ∈ pre, AngInert l) (hb : ∀ b ∈ blocks, b.WF flt) :
    ∃ r, processEnergyAngleTally flt minusOne t (pre ++ blocks.flatMap AngBlock.lines) 0 = .ok r ∧
      r.angBins = some (minusOne :: blocks.map (·.angle)) ∧
      r.result = .items (blocks.map (fun b => .list (b.rows.map (·.2.2.1)))) ∧
      r.err = .items (blocks.map (fun b => .list (b.rows.map (·.2.2.2)))) ∧
      (∀ b ∈ blocks.getLast?, r.eng = some (b.rows.map (·.2.1))) ∧ (blocks = [] → r.eng = t.eng) := by
  have key : ∀ (blocks : List (AngBlock F)) (st : AngSt F), (∀ b ∈ blocks, b.WF flt) → st.inRes = false → st.cur = [] →
      ∃ st', (blocks.flatMap AngBlock.lines).foldlM (angStep flt) st = .ok st' ∧ st'.angles = st.angles ++ blocks.map (·.angle) ∧
        st'.resDf = st.resDf ++ blocks.map (fun b => b.rows.map (·.2.2.1)) ∧ st'.errDf = st.errDf ++ blocks.map (fun b => b.rows.map (·.2.2.2)) ∧
        (∀ b ∈ blocks.getLast?, st'.eng = some (b.rows.map (·.2.1))) ∧ (blocks = [] → st'.eng = st.eng) := by
    clear hb
    intro blocks
    induction blocks with
    | nil => intro st _ _ _; exact ⟨st, rfl, by simp, by simp, by simp, by simp, fun _ => rfl⟩
    | cons b blocks ih =>
      intro st hb hi hc
      obtain ⟨st', h1, h2, h3, h4, h5, h6⟩ := ih ⟨st.angles ++ [b.angle], [], st.resDf ++ [b.rows.map (·.2.2.1)], st.errDf ++ [b.rows.map (·.2.2.2)],
        some (b.rows.map (·.2.1)), false⟩ (fun x hx => hb x (by simp [hx])) rfl rfl
      refine ⟨st', ?_, by simp [h2], by simp [h3], by simp [h4], ?_, by simp⟩
      · rw [List.flatMap_cons, foldlM_append_ok (ang_block (hb b (by simp)) hi hc), h1]
      · intro x hx
        cases hbs : blocks with
        | nil =>
          rw [hbs] at hx
          simp only [List.getLast?_singleton, Option.mem_def, Option.some.injEq] at hx
          rw [h6 hbs, hx]
        | cons y ys =>
          rw [hbs, List.getLast?_cons_cons, ← hbs] at hx
          exact h5 x hx
  obtain ⟨st', h1, h2, h3, h4, h5, h6⟩ := key blocks ⟨[minusOne], [], [], [], t.eng, false⟩ hb rfl rfl
  unfold processEnergyAngleTally
  rw [List.drop_zero, foldlM_append_ok (ang_inerts hp rfl), h1, ex_ok_bind]
  refine ⟨_, rfl, ?_, ?_, ?_, h5, h6⟩
  · simp [h2]
  · simp [h3, List.map_map, Function.comp_def]
  · simp [h4, List.map_map, Function.comp_def]

private def oneToy : Str → Option Int := fun s => if s = p!"0.5" then some 5 else if s = p!"1.0" then some 10 else none

example : ∃ r, processEnergyAngleTally oneToy (-10) ⟨1, '1', [], .inr 1, .items [], .items [], none, none, none, none, [], [], [], [], none, none, none, none, none, []⟩
    ([p!"x"] ++ [p!" angle  bin:  -1. to 0.5 mu", p!"      energy   ", p!"    0.5   1.0 0.5", p!"      total      1.0 0.5", p!" ",
      p!" angle  bin:  0.5 to 1.0 mu", p!"      energy   ", p!"    0.5   0.5 1.0", p!"      total      1.0 0.5"]) 0 = .ok r ∧
    r.angBins = some [-10, 5, 10] ∧ r.result = .items [.list [10], .list [5]] ∧ r.err = .items [.list [5], .list [10]] ∧ r.eng = some [5] :=
  ⟨_, rfl, by decide +kernel, by decide +kernel, by decide +kernel, by decide +kernel⟩

/-! ### C165 -/

private theorem splitOn_single {c : Char} {s : Str} (h : c ∉ s) : splitOn c s = [s] := by
  unfold splitOn
  apply splitP_of_not_mem
  intro x hx
  simp only [beq_eq_false_iff_ne]
  rintro rfl
  exact h hx

private theorem colon_join {ns : List Str} (h : ∀ n ∈ ns, ':' ∉ n) : ':' ∉ join p!" " ns := by
  induction ns with
  | nil => simp [join]
  | cons n ns ih =>
    cases ns with
    | nil => simpa [join] using h n (by simp)
    | cons m ns =>
      rw [join_cons (by simp)]
      intro hm
      simp only [List.mem_append, List.mem_cons, List.not_mem_nil, or_false] at hm
      rcases hm with hm | hm | hm
      · exact h n (by simp) hm
      · exact absurd hm (by decide)
      · exact ih (fun x hx => h x (by simp only [List.mem_cons] at hx ⊢; tauto)) hm

/-- The list of surfaces and areas of a type 2 tally: behind the line "areas" a line "surface:" with the numbers, then a line with the
    areas. -/
structure AreaLines (lines : List Str) (ns areas : List Str) : Prop where
  split : ∃ pre head l1 l2 rest name, lines = pre ++ head :: l1 :: l2 :: rest ∧ p!"           areas" <+: head ∧
    (∀ l ∈ pre, ¬ p!"           areas" <+: l) ∧ IsWords l1 ((name ++ p!":") :: ns) ∧ ':' ∉ name ∧ (∀ n ∈ ns, ':' ∉ n) ∧ IsWords l2 areas ∧ areas ≠ []

/-- One line of surfaces: all numbers and all areas, in order. -/
theorem C165_areas_partial {lines ns areas : List Str} (h : AreaLines lines ns areas) :
    getType2SurfaceNumbers lines = .ok ns ∧ getType2SurfaceAreas lines = .ok areas := by
  obtain ⟨pre, head, l1, l2, rest, name, rfl, hh, hp, h1, hn, hns, h2, ha⟩ := h.split
  have hf : findLine p!"           areas" (pre ++ head :: l1 :: l2 :: rest) 16 = .ok pre.length := findLine_at (k := 16) rfl hp hh
  have nosp : ∀ w ∈ ns, ' ' ∉ w := by
    intro w hw hm
    have h3 : w ∈ splitWs l1 := by rw [splitWs_of_isWords h1]; simp [hw]
    have := (mem_splitWs h3).2 ' ' hm
    simp [isSpace_space] at this
  constructor
  · unfold getType2SurfaceNumbers
    rw [hf]
    simp only [ex_ok_bind, at']
    rw [show (pre ++ head :: l1 :: l2 :: rest)[pre.length + 1]? = some l1 by simp]
    simp only [orErr, ex_ok_bind]
    rw [splitWs_of_isWords h1]
    by_cases hnil : ns = []
    · subst hnil
      have e : (splitOn ':' (join p!" " [name ++ p!":"]))[1]? = some [] := by
        rw [splitOn_one]
        exact ⟨name, [], rfl, hn, by simp, .inl rfl⟩
      rw [e]
      rfl
    · have e : (splitOn ':' (join p!" " ((name ++ p!":") :: ns)))[1]? = some (' ' :: join p!" " ns) := by
        rw [splitOn_one, join_cons hnil]
        refine ⟨name, ' ' :: join p!" " ns, by simp, hn, ?_, .inl rfl⟩
        simp only [List.mem_cons, not_or]
        exact ⟨by decide, colon_join hns⟩
      rw [e]
      simp only [ex_ok_bind, ex_pure]
      have e2 : splitOn ' ' (' ' :: join p!" " ns) = [] :: splitOn ' ' (join p!" " ns) := splitP_cons_pos (by decide) _
      rw [e2, splitOn_join hnil nosp]
      rfl
  · unfold getType2SurfaceAreas
    rw [hf]
    simp only [ex_ok_bind, at']
    rw [show (pre ++ head :: l1 :: l2 :: rest)[pre.length + 2]? = some l2 by simp]
    simp only [orErr, ex_ok_bind, ex_pure]
    rw [splitWs_of_isWords h2, splitOn_join ha]
    intro w hw hm
    have h3 : w ∈ splitWs l2 := by rw [splitWs_of_isWords h2]; exact hw
    have := (mem_splitWs h3).2 ' ' hm
    simp [isSpace_space] at this

/-- MCNP continues long lists with further pairs of lines; these are never read. -/
theorem C165_more_violated {lines ns areas : List Str} (h : AreaLines lines ns areas) (more : List Str) :
    getType2SurfaceNumbers (lines ++ more) = .ok ns ∧ getType2SurfaceAreas (lines ++ more) = .ok areas := by
  obtain ⟨pre, head, l1, l2, rest, name, rfl, hh, hp, h1, hn, hns, h2, ha⟩ := h.split
  exact C165_areas_partial ⟨pre, head, l1, l2, rest ++ more, name, by simp, hh, hp, h1, hn, hns, h2, ha⟩

/-- No list of areas: ValueError. -/
theorem C165_absent {lines : List Str} (h : ∀ l ∈ lines, ¬ p!"           areas" <+: l) :
    getType2SurfaceNumbers lines = .error .ValueError ∧ getType2SurfaceAreas lines = .error .ValueError := by
  have hf := (findLine_none (text := p!"           areas") (k := 16) (lines := lines) rfl).2 ⟨rfl, h⟩
  unfold getType2SurfaceNumbers getType2SurfaceAreas
  rw [hf]
  exact ⟨rfl, rfl⟩

example : getType2SurfaceNumbers [p!"", p!"           areas", p!"   surface:   1   22", p!"    1.0  2.0", p!"   surface:   3", p!"   3.0"] = .ok [p!"1", p!"22"] := by
  decide +kernel

/-! ### C166 -/

/-- The statistical tests: the words behind the first of the first line that starts with " passed"; "no" if there is none. -/
theorem C166_tests (lines : List Str) :
    (∀ pre l rest w ws, lines = pre ++ l :: rest → (∀ x ∈ pre, ¬ p!" passed" <+: x) → p!" passed" <+: l → IsWords l (w :: ws) →
      readStatTests lines = .ok ws) ∧
    ((∀ l ∈ lines, ¬ p!" passed" <+: l) → readStatTests lines = .ok [p!"no"]) := by
  constructor
  · rintro pre l rest w ws rfl hp hl hw
    unfold readStatTests
    rw [findLine_at (k := 7) rfl hp hl]
    simp only [at']
    rw [show (pre ++ l :: rest)[pre.length]? = some l by simp]
    simp only [orErr, ex_ok_bind, ex_pure]
    unfold stringCleanAndSplit
    rw [splitOn_stringCleaner_drop _ _ (by decide), splitWs_of_isWords hw]
    rfl
  · intro h
    unfold readStatTests
    rw [(findLine_none (text := p!" passed") (k := 7) rfl).2 ⟨rfl, h⟩]

example : readStatTests [p!" desired random", p!" passed?        yes          no "] = .ok [p!"yes", p!"no"] := by decide +kernel

/-! ### C167 -/

/-- What a successfully read output file holds: one tally for every tally number that occurs, each read from the whole file, the
    tables 60 and 101 exactly when the file has them, and the file system untouched. -/
theorem C167_file [LinearOrder F] {flt : Str → Option F} {minusOne : F} {enum : List Str → List Str} (he : ∀ l, (enum l).Perm l) {path : Str} {fs fs' : FS} {out : Output F}
    (h : readOutputFile flt minusOne enum path fs = (.ok out, fs')) :
    fs' = fs ∧ out.fileName = path ∧ ∃ c, fs.node path = some (.file c) ∧ ∃ lines, lines = splitlines (univNL c) ∧
      ∃ ns, (∀ w, w ∈ ns ↔ ∃ l ∈ lines, p!"1tally     " <+: l ∧ ∃ v ws, IsWords l (v :: w :: ws)) ∧ ns.Nodup ∧
        List.Forall₂ (fun n t => readTally flt minusOne enum lines n = .ok t) ns out.tallyData ∧ out.numTallies = out.tallyData.length ∧
      (out.fatal = true ↔ ∃ l ∈ lines, ∃ w, FatalText w ∧ w <:+: l) ∧
      out.comments = lines.filter (fun l => decide (p!"  comment." <+: l)) ∧ out.warnings = lines.filter (fun l => decide (p!"  warning." <+: l)) ∧
      out.numRendevous = lines.countP (fun l => decide (p!"master set rendezvous nps" <:+: l)) ∧
      (∀ t, out.t60 = some t ↔ ∃ i, out.tables.get p!"60" = some i ∧ readTable60 lines i = .ok t) ∧
      (∀ t, out.t101 = some t ↔ ∃ i, out.tables.get p!"101" = some i ∧ readTable101 lines i = .ok t) ∧
      (∀ key i, out.tables.get key = some i ↔ (∃ l, lines[i]? = some l ∧ AnnouncesRun l key) ∧ ∀ j l, i < j → lines[j]? = some l → ¬ AnnouncesRun l key) := by
  unfold readOutputFile at h
  cases hn : fs.node path with
  | none => rw [PyM.bind_err (getLines_none hn)] at h; cases h
  | some nd =>
    cases nd with
    | dir => rw [PyM.bind_err (getLines_dir hn)] at h; cases h
    | file c =>
      rw [PyM.bind_ok (getLines_file hn), PyM.lift_run] at h
      simp only [Prod.mk.injEq] at h
      obtain ⟨h, rfl⟩ := h
      generalize hls : splitlines (univNL c) = lines at h
      unfold readOutputLines at h
      simp only [ex_bind_ok, ex_pure, Except.ok.injEq] at h
      obtain ⟨dt, _, t60, h60, t101, h101, tls, htl, ts, hts, rfl⟩ := h
      have hns := (C93_numbers_partial lines).1 tls htl
      have hf := mapM_except_ok_iff.1 hts
      have htab : ∀ (rd : List Str → Nat → Except Err (List Str × List (List Str))) (d : Dict Str Nat) (key : Str) r, readTableIf rd lines d key = .ok r →
          ∀ t, r = some t ↔ ∃ i, d.get key = some i ∧ rd lines i = .ok t := by
        intro rd d key r hr t
        unfold readTableIf at hr
        cases hd : d.get key with
        | none => rw [hd] at hr; cases hr; simp
        | some i =>
          rw [hd] at hr
          simp only [ex_bind_ok, ex_pure, Except.ok.injEq] at hr
          obtain ⟨x, hx, rfl⟩ := hr
          simp only [Option.some.injEq, exists_eq_left', hx, Except.ok.injEq]
      refine ⟨rfl, rfl, c, rfl, lines, hls.symm, enum tls, ?_, ?_, hf, ?_, C96_fatal lines, (C96_comments lines).1, (C96_comments lines).2,
        C94_count lines, htab _ _ _ _ h60, htab _ _ _ _ h101, fun key i => C102_tables lines key i⟩
      · intro w
        rw [(he tls).mem_iff]
        exact hns.2.1 w
      · exact (he tls).nodup_iff.2 hns.1
      · show tls.length = ts.length
        rw [← hf.length_eq, (he tls).length_eq]

/-- A missing file or a folder raises, and nothing is written. -/
theorem C167_missing [LinearOrder F] (flt : Str → Option F) (minusOne : F) (enum : List Str → List Str) (path : Str) (fs : FS) :
    (fs.node path = none → readOutputFile flt minusOne enum path fs = (.error .FileNotFoundError, fs)) ∧
    (fs.node path = some .dir → readOutputFile flt minusOne enum path fs = (.error .OSError, fs)) ∧ (readOutputFile flt minusOne enum path fs).2 = fs := by
  unfold readOutputFile
  refine ⟨fun h => PyM.bind_err (getLines_none h), fun h => PyM.bind_err (getLines_dir h), ?_⟩
  cases hn : fs.node path with
  | none => rw [PyM.bind_err (getLines_none hn)]
  | some nd =>
    cases nd with
    | dir => rw [PyM.bind_err (getLines_dir hn)]
    | file c => rw [PyM.bind_ok (getLines_file hn), PyM.lift_run]

end Props
