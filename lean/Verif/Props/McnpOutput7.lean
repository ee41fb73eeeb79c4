/- Property C195 of mcnp_output_reader.py: `read_tally`. -/
import Verif.Proofs.McnpOutput
import Verif.Props.McnpOutput4

set_option linter.unusedSectionVars false
set_option linter.unusedSimpArgs false

namespace Props
open Py NeutUtilities McnpOutput
variable {F : Type}

/-! ### C195: the data of `read_tally` are those of the tally asked for -/

/-- `tnum` right-aligned in nine columns behind "1tally". -/
def TallyHead (tnum l : Str) : Prop := (p!"1tally" ++ List.replicate (9 - tnum.length) ' ' ++ tnum) <+: l

/-- `hd` is the first header of tally `tnum` and `body` the lines up to the next tally. -/
def TallySection (tnum : Str) (lines : List Str) (hd : Str) (body : List Str) : Prop :=
  ∃ pre nxt post, lines = pre ++ hd :: (body ++ nxt :: post) ∧ (∀ l ∈ pre, ¬ TallyHead tnum l) ∧ TallyHead tnum hd ∧
    (∀ l ∈ body, ¬ p!"1tally" <+: l) ∧ p!"1tally" <+: nxt

/-- What `read_tally` itself sets. -/
private def frontOf (t : Tally F) : Int × Char × Str × (Str ⊕ Int) := (t.number, t.tallyType, t.particle, t.nps)

private theorem withTable_front {t t' : Tally F} {r : Dict Nat (List (F × F × F)) × Dict Nat (F × F)} (h : withTable t r = .ok t') :
    frontOf t' = frontOf t := by
  unfold withTable at h
  simp only [ex_bind_ok, ex_pure, Except.ok.injEq] at h
  obtain ⟨_, _, rfl⟩ := h; rfl

private theorem userBlocks_front [LinearOrder F] {flt : Str → Option F} {bin : List Str} {ls : List Nat} {t t' : Tally F}
    (h : userBlocks flt bin ls t = .ok t') : frontOf t' = frontOf t := by
  fun_induction userBlocks flt bin ls t with
  | case1 a b ls t ih =>
    simp only [ex_bind_ok] at h
    obtain ⟨r, _, res, _, err, _, h⟩ := h
    exact ih r res err h
  | case2 => simp only [Except.ok.injEq] at h; rw [h]

private theorem type5_front [LinearOrder F] {flt : Str → Option F} {lines : List Str} {t t' : Tally F}
    (h : readType5 flt t lines = .ok t') : frontOf t' = frontOf t := by
  unfold readType5 at h
  simp only [ex_bind_ok] at h
  obtain ⟨i, hi, l, hl, p, hp, t1, h1, h2⟩ := h
  have e2 : frontOf t' = frontOf t1 := by
    unfold type5General at h2
    simp only [ex_bind_ok, ex_pure, Except.ok.injEq] at h2
    obtain ⟨_, _, _, _, _, _, _, _, _, _, _, _, _, _, _, _, _, _, _, _, _, _, _, _, _, _, rfl⟩ := h2
    rfl
  rw [e2]
  unfold type5Result at h1
  rw [ex_bind_ok] at h1
  obtain ⟨rl, _, h⟩ := h1
  split at h
  · simp only [ex_bind_ok, ex_pure, Except.ok.injEq] at h
    obtain ⟨_, _, _, _, rfl⟩ := h; rfl
  · split at h
    · simp only [ex_bind_ok, ex_pure, Except.ok.injEq] at h
      obtain ⟨_, _, _, _, rfl⟩ := h; rfl
    · split at h
      · simp only at h
        have := userBlocks_front h
        exact this
      · simp only [ex_bind_ok, ex_pure, Except.ok.injEq] at h
        obtain ⟨_, _, _, _, _, _, _, _, _, _, _, _, rfl⟩ := h; rfl

private theorem type8_front {flt : Str → Option F} {lines : List Str} {t t' : Tally F} (h : readType8 flt t lines = .ok t') :
    frontOf t' = frontOf t := by
  unfold readType8 at h
  simp only [ex_bind_ok] at h
  obtain ⟨i, _, l, _, h⟩ := h
  split at h
  · simp only [ex_bind_ok, ex_pure, Except.ok.injEq] at h
    obtain ⟨_, _, _, _, rfl⟩ := h
    rfl
  · simp only [ex_bind_ok, ex_pure, Except.ok.injEq] at h
    obtain ⟨_, _, _, _, _, _, _, _, _, _, _, _, rfl⟩ := h
    rfl

private theorem surfTimes_front [LinearOrder F] {flt : Str → Option F} {lines : List Str} {first : Nat} {t t' : Tally F}
    (h : surfTimes flt t lines first = .ok t') : frontOf t' = frontOf t := by
  unfold surfTimes at h
  simp only [ex_bind_ok] at h
  obtain ⟨e, _, l2, _, h⟩ := h
  split at h
  · split at h
    · simp only [ex_bind_ok, ex_pure, Except.ok.injEq] at h
      obtain ⟨_, _, _, _, rfl⟩ := h; rfl
    · simp only [ex_bind_ok, ex_pure, Except.ok.injEq] at h
      obtain ⟨_, _, rfl⟩ := h; rfl
  · split at h
    · simp only [ex_bind_ok, ex_pure, Except.ok.injEq] at h
      obtain ⟨_, _, rfl⟩ := h; rfl
    · simp only [ex_bind_ok, ex_pure, Except.ok.injEq] at h
      obtain ⟨_, _, _, _, rfl⟩ := h; rfl

private theorem surface_front [LinearOrder F] {flt : Str → Option F} {minusOne : F} {enum : List Str → List Str} {lines : List Str}
    {t t' : Tally F} (h : readTypeSurface flt minusOne enum t lines = .ok t') : frontOf t' = frontOf t := by
  unfold readTypeSurface at h
  extract_lets jp at h
  have key : ∀ t1, frontOf t1 = frontOf t → jp t1 = .ok t' → frontOf t' = frontOf t := by
    intro t1 e1 h
    simp only [jp] at h
    generalize ht2 : (if t1.tallyType = '1' then { t1 with surfaces := enum (getType1SurfaceNumbers lines).dedup } else t1) = t2 at h
    have e2 : frontOf t2 = frontOf t := by
      rw [← e1, ← ht2]
      split <;> rfl
    rw [← e2]
    simp only [ex_bind_ok] at h
    obtain ⟨first, _, l1, _, h⟩ := h
    split at h
    · simp only [ex_bind_ok] at h
      obtain ⟨r, _, h⟩ := h
      exact withTable_front h
    · split at h
      · simp only [ex_bind_ok] at h
        obtain ⟨l2, _, h⟩ := h
        split at h
        · unfold processEnergyAngleTally at h
          simp only [ex_bind_ok, ex_pure, Except.ok.injEq] at h
          obtain ⟨_, _, rfl⟩ := h; rfl
        · simp only [ex_pure, Except.ok.injEq] at h
          rw [h]
      · split at h
        · exact surfTimes_front h
        · split at h
          · simp only [ex_bind_ok, ex_pure, Except.ok.injEq] at h
            obtain ⟨_, _, rfl⟩ := h; rfl
          · simp only [ex_bind_ok, ex_pure, Except.ok.injEq] at h
            obtain ⟨_, _, _, _, _, _, _, _, rfl⟩ := h; rfl
  split at h
  · simp only [ex_bind_ok, ex_pure, Except.ok.injEq] at h
    obtain ⟨_, _, _, _, t1, e1, h⟩ := h
    exact key t1 (by rw [← e1]; rfl) h
  · simp only [ex_bind_ok, ex_pure, Except.ok.injEq] at h
    obtain ⟨t1, e1, h⟩ := h
    exact key t1 (by rw [← e1]; rfl) h

private theorem cellStep_front [LinearOrder F] {flt : Str → Option F} {b : Bool} {st st' : List Str × Tally F} {c : Str}
    (h : cellTallyStep flt b st c = .ok st') : frontOf st'.2 = frontOf st.2 := by
  unfold cellTallyStep at h
  simp only [ex_bind_ok] at h
  obtain ⟨i, _, l1, _, h⟩ := h
  split at h
  · simp only [ex_bind_ok] at h
    obtain ⟨e, _, l2, _, h⟩ := h
    split at h
    · simp only [ex_bind_ok, ex_pure, Except.ok.injEq] at h
      obtain ⟨_, _, _, _, _, _, rfl⟩ := h; rfl
    · simp only [ex_bind_ok, ex_pure, Except.ok.injEq] at h
      obtain ⟨_, _, _, _, _, _, _, _, rfl⟩ := h; rfl
  · split at h
    · simp only [ex_pure, Except.ok.injEq] at h
      rw [← h]
    · split at h
      · simp only [ex_pure, Except.ok.injEq] at h
        rw [← h]
      · simp only [ex_bind_ok, ex_pure, Except.ok.injEq] at h
        obtain ⟨_, _, _, _, _, _, _, _, _, _, _, _, rfl⟩ := h; rfl

private theorem cellSteps_front [LinearOrder F] {flt : Str → Option F} {b : Bool} {cs : List Str} {st st' : List Str × Tally F}
    (h : cs.foldlM (cellTallyStep flt b) st = .ok st') : frontOf st'.2 = frontOf st.2 := by
  induction cs generalizing st with
  | nil => simp only [List.foldlM_nil, ex_pure, Except.ok.injEq] at h; rw [h]
  | cons c cs ih =>
    rw [List.foldlM_cons, ex_bind_ok] at h
    obtain ⟨st1, h1, h⟩ := h
    rw [ih h, cellStep_front h1]

private theorem cell_front [LinearOrder F] {flt : Str → Option F} {lines : List Str} {t t' : Tally F}
    (h : readTypeCell flt t lines = .ok t') : frontOf t' = frontOf t := by
  unfold readTypeCell at h
  extract_lets jp at h
  have key : ∀ i, jp i = .ok t' → frontOf t' = frontOf t := by
    intro i h
    simp only [jp, ex_bind_ok] at h
    obtain ⟨cd, _, c0, _, j, _, l1, _, h⟩ := h
    split at h
    · simp only [ex_bind_ok, ex_pure, Except.ok.injEq] at h
      obtain ⟨r, _, t1, h1, st, h2, rfl⟩ := h
      rw [cellSteps_front h2]
      exact (withTable_front h1).trans rfl
    · simp only [ex_bind_ok, ex_pure, Except.ok.injEq] at h
      obtain ⟨st, h2, rfl⟩ := h
      rw [cellSteps_front h2]
      rfl
  split at h <;>
  · rw [ex_bind_ok] at h
    obtain ⟨i, _, h⟩ := h
    exact key i h

private theorem byType_front [LinearOrder F] {flt : Str → Option F} {minusOne : F} {enum : List Str → List Str} {lines : List Str}
    {t t' : Tally F} (h : readByType flt minusOne enum t lines = .ok t') : frontOf t' = frontOf t := by
  unfold readByType at h
  split at h
  · exact cell_front h
  · split at h
    · exact type5_front h
    · split at h
      · exact surface_front h
      · split at h
        · exact type8_front h
        · simp only [Except.ok.injEq] at h; rw [h]

/-- The reader of a tally keeps its type. -/
theorem byType_type [LinearOrder F] {flt : Str → Option F} {minusOne : F} {enum : List Str → List Str} {lines : List Str}
    {t t' : Tally F} (h : readByType flt minusOne enum t lines = .ok t') : t'.tallyType = t.tallyType := congrArg (·.2.1) (byType_front h)

private theorem find_append {text : Str} {k : Nat} (hk : text.length = k) {a b : List Str} {x : Str} (ha : ∀ y ∈ a, ¬ text <+: y)
    (hx : text <+: x) : findLine text (a ++ x :: b) k = .ok a.length := by
  rw [findLine_prefix hk]
  refine ⟨⟨x, by simp, hx⟩, ?_⟩
  rintro j hj ⟨y, hy, hp⟩
  rw [List.getElem?_append_left hj] at hy
  exact ha y (List.mem_of_getElem? hy) hp

private theorem at_append (pre : List Str) (x : Str) (l : List Str) (i : Nat) : at' (pre ++ x :: l) (pre.length + 1 + i) = at' l i := by
  unfold at'
  rw [List.getElem?_append_right (by omega), show pre.length + 1 + i - pre.length = i + 1 by omega]
  rfl

/-- `lines[:n - 1]` of a list with `n` or more entries. -/
private theorem slice_front (body rest : List Str) (hb : body ≠ []) :
    sliceI (body ++ rest) 0 ((body.length : Int) - 1) = body.dropLast := by
  have hpos : 0 < body.length := List.length_pos_iff.2 hb
  have : ((body.length : Int) - 1) = ((body.length - 1 : Nat) : Int) := by omega
  rw [this]
  simp only [sliceI, clamp]
  rw [List.dropLast_eq_take]
  rw [if_pos (le_refl _), if_pos (by omega)]
  simp only [slice, Int.toNat_natCast, Int.toNat_zero, Nat.zero_min, List.drop_zero, List.length_append]
  rw [Nat.min_eq_left (by omega), List.take_append_of_le_length (by omega)]

private theorem readTallyIn_eq [LinearOrder F] (flt : Str → Option F) (minusOne : F) (enum : List Str → List Str) {tnum : Str}
    (ht : tnum.length ≤ 9) {lines : List Str} {hd : Str} {body : List Str} (h : TallySection tnum lines hd body) (h3 : 3 ≤ body.length) :
    readTallyIn flt minusOne enum lines tnum = (do
      let c ← at' body 0
      let c ← orErr .IndexError c[0]?
      let off := if c = '+' then 1 else 0
      let l ← at' body off
      let ty ← orErr .IndexError l[22]?
      let n ← orErr .ValueError (pyInt tnum)
      let pl ← at' body (1 + off)
      let nps := stringCleaner (slice hd 28 40)
      let nps : Str ⊕ Int := match pyInt nps with
        | some k => .inr k
        | none => .inl nps
      readByType flt minusOne enum ⟨n, ty, stringCleaner (slice pl 24 33), nps, .items [], .items [], none, none, none, none, [], [], [], [],
        none, none, none, none, none, []⟩ body.dropLast) := by
  obtain ⟨pre, nxt, post, rfl, hpre, hhd, hbody, hnxt⟩ := h
  have hlen : (p!"1tally" ++ List.replicate (9 - tnum.length) ' ' ++ tnum).length = 15 := by
    simp; omega
  have e1 := find_append hlen (b := body ++ nxt :: post) hpre hhd
  have hat : ∀ i < 3, at' (body ++ nxt :: post) i = at' body i := by
    intro i hi
    unfold at'
    rw [List.getElem?_append_left (by omega)]
  have ha : ∀ i < 3, at' (pre ++ hd :: (body ++ nxt :: post)) (pre.length + 1 + i) = at' body i := by
    intro i hi
    rw [at_append, hat i hi]
  have h0 : at' (pre ++ hd :: (body ++ nxt :: post)) pre.length = .ok hd := by
    unfold at'
    simp [orErr]
  have hdrop : (pre ++ hd :: (body ++ nxt :: post)).drop (pre.length + 1) = body ++ nxt :: post := by
    rw [List.drop_append]; simp
  have e2 := find_append (show p!"1tally".length = 6 from rfl) (b := post) hbody hnxt
  unfold readTallyIn
  rw [e1]
  simp only [ex_ok_bind, hdrop, e2, h0]
  rw [show pre.length + 1 = pre.length + 1 + 0 from rfl, ha 0 (by omega)]
  congr 1; funext c
  congr 1; funext c
  have hoff : (if c = '+' then 1 else 0) < 2 := by split <;> omega
  generalize (if c = '+' then 1 else 0) = off at hoff
  rw [Nat.add_zero, ha off (by omega), show pre.length + 2 + off = pre.length + 1 + (1 + off) by omega, ha (1 + off) (by omega),
    slice_front body _ (by rintro rfl; simp at h3)]
  rfl

/-- Only the header and the lines of the tally itself matter: whatever the other parts of two files are, the result is the same. -/
theorem C195_section [LinearOrder F] (flt : Str → Option F) (minusOne : F) (enum : List Str → List Str) {tnum : Str} (ht : tnum.length ≤ 9)
    {lines lines' : List Str} {hd : Str} {body : List Str} (h : TallySection tnum lines hd body) (h' : TallySection tnum lines' hd body)
    (h3 : 3 ≤ body.length) : readTallyIn flt minusOne enum lines tnum = readTallyIn flt minusOne enum lines' tnum := by
  rw [readTallyIn_eq flt minusOne enum ht h h3, readTallyIn_eq flt minusOne enum ht h' h3]

/-- The last line before the next tally has no influence either. -/
theorem C195_last_line [LinearOrder F] (flt : Str → Option F) (minusOne : F) (enum : List Str → List Str) {tnum : Str} (ht : tnum.length ≤ 9)
    {lines lines' : List Str} {hd x y : Str} {body : List Str} (h : TallySection tnum lines hd (body ++ [x]))
    (h' : TallySection tnum lines' hd (body ++ [y])) (h3 : 3 ≤ body.length) :
    readTallyIn flt minusOne enum lines tnum = readTallyIn flt minusOne enum lines' tnum := by
  rw [readTallyIn_eq flt minusOne enum ht h (by simp; omega), readTallyIn_eq flt minusOne enum ht h' (by simp; omega)]
  have : ∀ (z : Str) i, i < 3 → at' (body ++ [z]) i = at' body i := by
    intro z i hi
    unfold at'
    rw [List.getElem?_append_left (by omega)]
  rw [this x 0 (by omega), this y 0 (by omega)]
  congr 1; funext c
  congr 1; funext c
  have hoff : (if c = '+' then 1 else 0) < 2 := by split <;> omega
  generalize (if c = '+' then 1 else 0) = off at hoff
  simp only [this x off (by omega), this y off (by omega), this x (1 + off) (by omega), this y (1 + off) (by omega), List.dropLast_concat]

/-- The position of the line with the type: a comment line begins with "+" and shifts it by one. -/
def TypeLine (body : List Str) (off : Nat) : Prop :=
  ∃ c l, body[0]? = some (c :: l) ∧ (c = '+' ∧ off = 1 ∨ c ≠ '+' ∧ off = 0)

/-- Number, type, particle and number of histories are those asked for or printed at the top of the section: the type in column 22 of
    the first line behind header and comment, the particle in columns 24 to 32 of the next, the histories in columns 28 to 39 of the header. -/
theorem C195_fields [LinearOrder F] {flt : Str → Option F} {minusOne : F} {enum : List Str → List Str} {tnum : Str} (ht : tnum.length ≤ 9)
    {lines : List Str} {hd : Str} {body : List Str} (h : TallySection tnum lines hd body) (h3 : 3 ≤ body.length) {t : Tally F}
    (hr : readTallyIn flt minusOne enum lines tnum = .ok t) :
    ∃ off l pl ws vs, TypeLine body off ∧ body[off]? = some l ∧ body[off + 1]? = some pl ∧ pyInt tnum = some t.number ∧
      l[22]? = some t.tallyType ∧ Spec.IsWords ((pl.drop 24).take 9) ws ∧ t.particle = join p!" " ws ∧
      Spec.IsWords ((hd.drop 28).take 12) vs ∧
      (∀ k, pyInt (join p!" " vs) = some k → t.nps = .inr k) ∧ (pyInt (join p!" " vs) = none → t.nps = .inl (join p!" " vs)) := by
  rw [readTallyIn_eq flt minusOne enum ht h h3] at hr
  simp only [ex_bind_ok, at', orErr_ok_iff] at hr
  obtain ⟨c0, h0, c, hc, l, hl, ty, hty, n, hn, pl, hpl, hr⟩ := hr
  have hf := byType_front hr
  simp only [frontOf, Prod.mk.injEq] at hf
  obtain ⟨f1, f2, f3, f4⟩ := hf
  have hs : ∀ (s : Str) (a b : Nat), slice s a (a + b) = (s.drop a).take b := by
    intro s a b; unfold slice; rw [List.take_drop]
  have hcl : ∀ s : Str, stringCleaner s = join p!" " (splitWs s) := by
    intro s; unfold stringCleaner; rw [splitWs_strip]
  refine ⟨if c = '+' then 1 else 0, l, pl, _, _, ?_, hl, ?_, by rw [f1]; exact hn, by rw [f2]; exact hty,
    isWords_splitWs _, ?_, isWords_splitWs _, ?_, ?_⟩
  · cases c0 with
    | nil => simp at hc
    | cons a r =>
      simp only [List.getElem?_cons_zero, Option.some.injEq] at hc
      refine ⟨a, r, h0, ?_⟩
      rw [← hc]
      by_cases hp : a = '+' <;> simp [hp]
  · rw [Nat.add_comm]; exact hpl
  · rw [f3, show (33 : Nat) = 24 + 9 from rfl, hs, hcl]
  · intro k hk
    rw [f4, show (40 : Nat) = 28 + 12 from rfl, hs, hcl, hk]
  · intro hk
    rw [f4, show (40 : Nat) = 28 + 12 from rfl, hs, hcl, hk]

/-- A tally of any other type than 1, 2, 4, 5, 6 and 8 is returned without results. -/
theorem C195_other_types [LinearOrder F] {flt : Str → Option F} {minusOne : F} {enum : List Str → List Str} {tnum : Str}
    (ht : tnum.length ≤ 9) {lines : List Str} {hd : Str} {body : List Str} (h : TallySection tnum lines hd body) (h3 : 3 ≤ body.length)
    {t : Tally F} (hr : readTallyIn flt minusOne enum lines tnum = .ok t) (hty : t.tallyType ∉ ['1', '2', '4', '5', '6', '8']) :
    t.result = .items [] ∧ t.err = .items [] ∧ t.eng = none ∧ t.times = none ∧ t.cells = [] ∧ t.surfaces = [] := by
  rw [readTallyIn_eq flt minusOne enum ht h h3] at hr
  simp only [ex_bind_ok, at', orErr_ok_iff] at hr
  obtain ⟨c0, h0, c, hc, l, hl, ty, hty', n, hn, pl, hpl, hr⟩ := hr
  have hf := byType_front hr
  simp only [frontOf, Prod.mk.injEq] at hf
  rw [hf.2.1] at hty
  simp only [List.mem_cons, List.not_mem_nil, or_false, not_or] at hty
  unfold readByType at hr
  rw [if_neg (by simp only [not_or]; exact ⟨hty.2.2.1, hty.2.2.2.2.1⟩), if_neg hty.2.2.2.1,
    if_neg (by simp only [not_or]; exact ⟨hty.1, hty.2.1⟩), if_neg hty.2.2.2.2.2] at hr
  simp only [Except.ok.injEq] at hr
  rw [← hr]
  exact ⟨rfl, rfl, rfl, rfl, rfl, rfl⟩

/-- `t0` holds what is known before the results are read, and nothing else. -/
def NoResults (t0 : Tally F) : Prop :=
  t0 = ⟨t0.number, t0.tallyType, t0.particle, t0.nps, .items [], .items [], none, none, none, none, [], [], [], [], none, none, none, none, none, []⟩

/-- The reader of the type printed in the section gets all of its lines but the last, and its result is returned. -/
theorem C195_reader [LinearOrder F] {flt : Str → Option F} {minusOne : F} {enum : List Str → List Str} {tnum : Str} (ht : tnum.length ≤ 9)
    {lines : List Str} {hd x : Str} {body : List Str} (h : TallySection tnum lines hd (body ++ [x])) (h3 : 2 ≤ body.length) {t : Tally F}
    (hr : readTallyIn flt minusOne enum lines tnum = .ok t) :
    ∃ t0 : Tally F, NoResults t0 ∧ t0.number = t.number ∧ t0.tallyType = t.tallyType ∧ t0.particle = t.particle ∧ t0.nps = t.nps ∧
      (t.tallyType = '4' ∨ t.tallyType = '6' → readTypeCell flt t0 body = .ok t) ∧
      (t.tallyType = '5' → readType5 flt t0 body = .ok t) ∧
      (t.tallyType = '1' ∨ t.tallyType = '2' → readTypeSurface flt minusOne enum t0 body = .ok t) ∧
      (t.tallyType = '8' → readType8 flt t0 body = .ok t) := by
  rw [readTallyIn_eq flt minusOne enum ht h (by simp; omega), List.dropLast_concat] at hr
  simp only [ex_bind_ok, at', orErr_ok_iff] at hr
  obtain ⟨c0, h0, c, hc, l, hl, ty, hty, n, hn, pl, hpl, hr⟩ := hr
  have hf := byType_front hr
  generalize ht0 : (⟨n, ty, _, _, .items [], .items [], none, none, none, none, [], [], [], [], none, none, none, none, none, []⟩ : Tally F) = t0 at hr hf
  simp only [frontOf, Prod.mk.injEq] at hf
  obtain ⟨f1, f2, f3, f4⟩ := hf
  refine ⟨t0, by unfold NoResults; rw [← ht0], f1.symm, f2.symm, f3.symm, f4.symm, ?_, ?_, ?_, ?_⟩
  all_goals
    intro h
    unfold readByType at hr
    rw [f2] at h
  · rwa [if_pos h] at hr
  · rwa [if_neg (by rw [h]; decide), if_pos h] at hr
  · rwa [if_neg (by rcases h with h | h <;> rw [h] <;> decide), if_neg (by rcases h with h | h <;> rw [h] <;> decide), if_pos h] at hr
  · rwa [if_neg (by rw [h]; decide), if_neg (by rw [h]; decide), if_neg (by rw [h]; decide), if_pos h] at hr

/-- A tally that is followed by no further line "1tally..." is never read. -/
theorem C195_unfinished [LinearOrder F] (flt : Str → Option F) (minusOne : F) (enum : List Str → List Str) {tnum : Str} (ht : tnum.length ≤ 9)
    {pre body : List Str} {hd : Str} (hp : ∀ l ∈ pre, ¬ TallyHead tnum l) (hh : TallyHead tnum hd) (hb : ∀ l ∈ body, ¬ p!"1tally" <+: l)
    (t : Tally F) : readTallyIn flt minusOne enum (pre ++ hd :: body) tnum ≠ .ok t := by
  intro h
  have hlen : (p!"1tally" ++ List.replicate (9 - tnum.length) ' ' ++ tnum).length = 15 := by
    simp; omega
  have e1 := find_append hlen (b := body) hp hh
  have hdrop : (pre ++ hd :: body).drop (pre.length + 1) = body := by
    rw [List.drop_append]; simp
  unfold readTallyIn at h
  rw [e1] at h
  simp only [ex_ok_bind, hdrop, (findLine_none (show p!"1tally".length = 6 from rfl)).2 ⟨rfl, hb⟩, ex_bind_ok] at h
  obtain ⟨_, _, _, _, _, _, _, _, _, _, _, _, _, _, e, he, _⟩ := h
  cases he

/-- A surface tally is read with all of its data; that of an unknown type without results. -/
example : TallySection p!"4" [p!"x", p!"1tally        4        nps =     1000", p!"+ comment", p!"b", p!"c", p!"", p!"1tally       14"]
    p!"1tally        4        nps =     1000" [p!"+ comment", p!"b", p!"c", p!""] :=
  ⟨[p!"x"], p!"1tally       14", [], rfl, by unfold TallyHead; decide +kernel, by unfold TallyHead; decide +kernel, by decide +kernel, by decide +kernel⟩
example : NoResults (⟨4, '4', p!"n", .inr 1, .items [], .items [], none, none, none, none, [], [], [], [], none, none, none, none, none, []⟩ : Tally Nat) := rfl
example : TypeLine [p!"+ comment", p!"b"] 1 := ⟨'+', p!" comment", rfl, .inl ⟨rfl, rfl⟩⟩
example : (readTallyIn pyNat 0 id [p!"x", p!"1tally        4        nps =     1000", p!"+ comment", p!"           tally type 7    fission",
    p!"           particle(s): neutrons   x", p!"c", p!"", p!"1tally       14"] p!"4").map (fun t => (t.number, t.tallyType, t.particle, t.nps)) =
    .ok (4, '7', p!"neutrons", .inr 1000) := by decide +kernel

end Props
