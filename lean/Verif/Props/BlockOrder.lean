/-
C255: the order of the cells and of the surfaces in their blocks of an MCNP input. C270: each card on its own.
-/
import Verif.Props.CardOrder
import Verif.Props.LetterCase

set_option linter.unusedSimpArgs false

namespace Props
open Py NeutUtilities McnpInput Spec.Mcnp
variable {F : Type}

/-! ### Dictionaries filled from a list of cards -/

private def fill {α V : Type} (f : α → Except Err (Int × V)) : List α → Dict Int V → Except Err (Dict Int V)
  | [], d => .ok d
  | a :: as, d => do
    let e ← f a
    fill f as (d.set e.1 e.2)

private theorem fill_ok {α V : Type} {f : α → Except Err (Int × V)} {as : List α} {d d' : Dict Int V} (h : fill f as d = .ok d') :
    ∀ n v, d'.get n = some v → (∃ a ∈ as, f a = .ok (n, v)) ∨ d.get n = some v := by
  induction as generalizing d with
  | nil => cases h; intro n v hv; exact .inr hv
  | cons a as ih =>
    obtain ⟨e, h1, h2⟩ := ex_bind_ok.1 h
    intro n v hv
    rcases ih h2 n v hv with ⟨b, hb, hf⟩ | hd
    · exact .inl ⟨b, by simp [hb], hf⟩
    · by_cases hn : n = e.1
      · subst hn
        rw [Dict.get_set_self] at hd
        cases hd
        exact .inl ⟨a, by simp, h1⟩
      · rw [Dict.get_set_ne _ _ hn] at hd
        exact .inr hd

private theorem fill_get {α V : Type} {f : α → Except Err (Int × V)} {as : List α} {d d' : Dict Int V} (h : fill f as d = .ok d') {n : Int}
    (hn : (∃ a ∈ as, ∃ v, f a = .ok (n, v)) ∨ (d.get n).isSome) : (d'.get n).isSome := by
  induction as generalizing d with
  | nil =>
    cases h
    rcases hn with ⟨a, ha, _⟩ | hn
    · cases ha
    · exact hn
  | cons a as ih =>
    obtain ⟨e, h1, h2⟩ := ex_bind_ok.1 h
    apply ih h2
    rcases hn with ⟨b, hb, v, hv⟩ | hn
    · rcases List.mem_cons.1 hb with rfl | hb
      · rw [h1] at hv
        cases hv
        right; rw [Dict.get_set_self]; rfl
      · exact .inl ⟨b, hb, v, hv⟩
    · right
      by_cases he : n = e.1
      · subst he; rw [Dict.get_set_self]; rfl
      · rw [Dict.get_set_ne _ _ he]; exact hn

private theorem fill_each {α V : Type} {f : α → Except Err (Int × V)} {as : List α} {d d' : Dict Int V} (h : fill f as d = .ok d') :
    ∀ a ∈ as, ∃ e, f a = .ok e := by
  induction as generalizing d with
  | nil => intro a ha; cases ha
  | cons a as ih =>
    obtain ⟨e, h1, h2⟩ := ex_bind_ok.1 h
    intro b hb
    rcases List.mem_cons.1 hb with rfl | hb
    · exact ⟨e, h1⟩
    · exact ih h2 b hb

private theorem fill_total {α V : Type} {f : α → Except Err (Int × V)} {as : List α} (h : ∀ a ∈ as, ∃ e, f a = .ok e) :
    ∀ d, ∃ d', fill f as d = .ok d' := by
  induction as with
  | nil => intro d; exact ⟨d, rfl⟩
  | cons a as ih =>
    intro d
    obtain ⟨e, he⟩ := h a (by simp)
    obtain ⟨d', hd⟩ := ih (fun b hb => h b (by simp [hb])) (d.set e.1 e.2)
    exact ⟨d', by unfold fill; rw [he]; exact hd⟩

private theorem fill_perm {α V : Type} {f : α → Except Err (Int × V)} {as bs : List α} (hp : as.Perm bs)
    (hk : ∀ a ∈ as, ∀ b ∈ as, ∀ n v w, f a = .ok (n, v) → f b = .ok (n, w) → a = b) {d : Dict Int V} (h : fill f as [] = .ok d) :
    ∃ d', fill f bs [] = .ok d' ∧ ∀ n, d.get n = d'.get n := by
  obtain ⟨d', hd⟩ := fill_total (f := f) (as := bs) (fun b hb => fill_each h b (hp.mem_iff.2 hb)) []
  refine ⟨d', hd, fun n => ?_⟩
  have hnil : ∀ k : Int, Dict.get ([] : Dict Int V) k = none := fun _ => rfl
  cases h1 : d.get n with
  | none =>
    cases h2 : d'.get n with
    | none => rfl
    | some w =>
      rcases fill_ok hd n w h2 with ⟨b, hb, hw⟩ | hw
      · have := fill_get h (n := n) (.inl ⟨b, hp.mem_iff.2 hb, w, hw⟩)
        rw [h1] at this; cases this
      · rw [hnil] at hw; cases hw
  | some v =>
    rcases fill_ok h n v h1 with ⟨a, ha, hv⟩ | hv
    · have := fill_get hd (n := n) (.inl ⟨a, hp.mem_iff.1 ha, v, hv⟩)
      cases h2 : d'.get n with
      | none => rw [h2] at this; cases this
      | some w =>
        rcases fill_ok hd n w h2 with ⟨b, hb, hw⟩ | hw
        · have := hk a ha b (hp.mem_iff.2 hb) n v w hv hw
          subst this
          rw [hv] at hw
          cases hw; rfl
        · rw [hnil] at hw; cases hw
    · rw [hnil] at hv; cases hv

/-! ### Cells -/

/-- A cell: its first line, which starts with a digit, and the lines up to the next cell. -/
structure FullCell (c : Str × List Str) : Prop where
  first : ∃ x ∈ c.1.head?, isDigit x = true
  body : ∀ l ∈ c.2, ∃ x ∈ l.head?, isDigit x = false

/-- Lines in front of the first card of a block, such as the title. -/
def NoCell (top : List Str) : Prop := ∀ l ∈ top, ∃ x ∈ l.head?, isDigit x = false

/-- The number a card starts with. -/
def cardNumber (l : Str) : Option Int := ((splitWs l).head?).bind pyInt

/-- No two different cards have the same number. -/
def OneNumber (cs : List (Str × List Str)) : Prop := ∀ c ∈ cs, ∀ c' ∈ cs, cardNumber c.1 = cardNumber c'.1 → c = c'

private def readCell (flt : Str → Option F) (c : Str × List Str) : Except Err (Int × Cell F) := do
  let cur ← startCell flt (splitOn ' ' (stringCleaner c.1))
  let cell ← processGeom flt (cur.2 ++ c.2.filter isContinueLine) cur.1
  pure (cell.number, cell)

private theorem cellBody (flt : Str → Option F) (body rest : List Str) (h : ∀ l ∈ body, ∃ x ∈ l.head?, isDigit x = false) :
    ∀ (d : Dict Int (Cell F)) (cell : Cell F) (geom : List Str),
      (body ++ rest).foldlM (cellStep flt) ⟨d, some (cell, geom)⟩ =
        rest.foldlM (cellStep flt) ⟨d, some (cell, geom ++ body.filter isContinueLine)⟩ := by
  induction body with
  | nil => intro d cell geom; simp
  | cons l body ih =>
    intro d cell geom
    obtain ⟨x, hx, hxd⟩ := h l (by simp)
    cases l with
    | nil => simp at hx
    | cons y t =>
      simp only [List.head?_cons, Option.mem_def, Option.some.injEq] at hx
      subst hx
      rw [List.cons_append, List.foldlM_cons]
      have hs : cellStep flt ⟨d, some (cell, geom)⟩ (y :: t) =
          .ok ⟨d, some (cell, if isContinueLine (y :: t) then geom ++ [y :: t] else geom)⟩ := by
        unfold cellStep
        simp only [List.getElem?_cons_zero, orErr, ex_ok_bind, hxd, Bool.false_eq_true, if_false]
        by_cases hc : isContinueLine (y :: t) = true
        · simp only [hc, if_true]; rfl
        · simp only [hc, if_false]; rfl
      rw [hs, ex_ok_bind, ih (fun l hl => h l (by simp [hl]))]
      by_cases hc : isContinueLine (y :: t) = true
      · simp only [hc, if_true, List.filter_cons_of_pos, List.append_assoc, List.singleton_append]
      · rw [List.filter_cons_of_neg hc]
        simp only [hc, if_false, Bool.false_eq_true]

private theorem cellTop (flt : Str → Option F) (top rest : List Str) (h : NoCell top) :
    (top ++ rest).foldlM (cellStep flt) ⟨[], none⟩ = rest.foldlM (cellStep flt) ⟨[], none⟩ := by
  induction top with
  | nil => rfl
  | cons l top ih =>
    obtain ⟨x, hx, hxd⟩ := h l (by simp)
    cases l with
    | nil => simp at hx
    | cons y t =>
      simp only [List.head?_cons, Option.mem_def, Option.some.injEq] at hx
      subst hx
      rw [List.cons_append, List.foldlM_cons]
      have hs : cellStep flt ⟨[], none⟩ (y :: t) = .ok ⟨[], none⟩ := by
        unfold cellStep
        simp only [List.getElem?_cons_zero, orErr, ex_ok_bind, hxd, Bool.false_eq_true, if_false]
        by_cases hc : isContinueLine (y :: t) = true
        · simp only [hc, if_true]; rfl
        · simp only [hc, if_false]; rfl
      rw [hs, ex_ok_bind]
      exact ih (fun l hl => h l (by simp [hl]))

private theorem cellFirst (flt : Str → Option F) (c : Str × List Str) (hc : FullCell c) (st : CellSt F) (dict : Dict Int (Cell F))
    (hd : (match st.cur with | none => pure st.dict | some cur => finishCell flt st.dict cur : Except Err (Dict Int (Cell F))) = .ok dict) :
    cellStep flt st c.1 = (do
      let cur ← startCell flt (splitOn ' ' (stringCleaner c.1))
      pure ⟨dict, some cur⟩) := by
  obtain ⟨x, hx, hxd⟩ := hc.first
  cases h1 : c.1 with
  | nil => rw [h1] at hx; simp at hx
  | cons y t =>
    rw [h1] at hx
    simp only [List.head?_cons, Option.mem_def, Option.some.injEq] at hx
    subst hx
    unfold cellStep
    simp only [List.getElem?_cons_zero, orErr, ex_ok_bind, hxd, if_true]
    cases hcur : st.cur with
    | none =>
      rw [hcur] at hd
      cases hd
      rfl
    | some cur =>
      rw [hcur] at hd
      simp only at hd ⊢
      rw [hd]; rfl

private theorem cellsRest (flt : Str → Option F) (cs : List (Str × List Str)) (h : ∀ c ∈ cs, FullCell c) :
    ∀ (d : Dict Int (Cell F)) (cur : Cell F × List Str),
      (do
        let st ← (cardLines cs).foldlM (cellStep flt) ⟨d, some cur⟩
        match st.cur with
        | none => .error .AttributeError
        | some cur => finishCell flt st.dict cur) =
      (do
        let cell ← processGeom flt cur.2 cur.1
        fill (readCell flt) cs (d.set cell.number cell)) := by
  induction cs with
  | nil => intro d cur; rfl
  | cons c cs ih =>
    intro d cur
    have e : cardLines (c :: cs) = c.1 :: (c.2 ++ cardLines cs) := by simp [cardLines]
    rw [e, List.foldlM_cons]
    have hc := h c (by simp)
    cases hg : processGeom flt cur.2 cur.1 with
    | error er =>
      obtain ⟨x, hx, hxd⟩ := hc.first
      cases h1 : c.1 with
      | nil => rw [h1] at hx; simp at hx
      | cons y t =>
        rw [h1] at hx
        simp only [List.head?_cons, Option.mem_def, Option.some.injEq] at hx
        subst hx
        unfold cellStep finishCell
        simp only [List.getElem?_cons_zero, orErr, ex_ok_bind, hxd, if_true, hg]
        rfl
    | ok cell =>
      rw [cellFirst flt c hc ⟨d, some cur⟩ (d.set cell.number cell) (by simp only [finishCell, hg]; rfl)]
      rw [ex_ok_bind]
      rw [fill]
      cases hs : startCell flt (splitOn ' ' (stringCleaner c.1)) with
      | error er => simp only [readCell, hs]; rfl
      | ok cur' =>
        simp only [readCell, hs, ex_ok_bind, pure_bind, bind_assoc]
        rw [cellBody flt c.2 _ hc.body, ih (fun c hc => h c (by simp [hc]))]

private theorem cellBlock_eq (flt : Str → Option F) {top : List Str} (ht : NoCell top) {cs : List (Str × List Str)}
    (h : ∀ c ∈ cs, FullCell c) (hne : cs ≠ []) : processCellBlock flt (top ++ cardLines cs) = fill (readCell flt) cs [] := by
  unfold processCellBlock
  rw [cellTop flt top _ ht]
  cases cs with
  | nil => exact absurd rfl hne
  | cons c cs =>
    have e : cardLines (c :: cs) = c.1 :: (c.2 ++ cardLines cs) := by simp [cardLines]
    have hc := h c (by simp)
    rw [e, List.foldlM_cons, cellFirst flt c hc ⟨[], none⟩ [] rfl]
    rw [fill]
    cases hs : startCell flt (splitOn ' ' (stringCleaner c.1)) with
    | error er => simp only [readCell, hs]; rfl
    | ok cur' =>
      simp only [readCell, hs, ex_ok_bind, pure_bind, bind_assoc]
      rw [cellBody flt c.2 _ hc.body]
      exact cellsRest flt cs (fun c hc => h c (by simp [hc])) [] _

private theorem readCell_number {flt : Str → Option F} {c : Str × List Str} {n : Int} {cell : Cell F}
    (h : readCell flt c = .ok (n, cell)) : cardNumber c.1 = some n := by
  unfold readCell at h
  obtain ⟨cur, h1, h⟩ := ex_bind_ok.1 h
  obtain ⟨cell', h2, h3⟩ := ex_bind_ok.1 h
  cases h3
  have hn : cell.number = cur.1.number := by
    unfold processGeom at h2
    obtain ⟨st, _, h2⟩ := ex_bind_ok.1 h2
    cases h2; rfl
  rw [hn]
  unfold startCell at h1
  obtain ⟨w0, a1, h1⟩ := ex_bind_ok.1 h1
  obtain ⟨k, a2, h1⟩ := ex_bind_ok.1 h1
  obtain ⟨w1, _, h1⟩ := ex_bind_ok.1 h1
  obtain ⟨m, _, h1⟩ := ex_bind_ok.1 h1
  have hk : cur.1.number = k := by
    split_ifs at h1
    · obtain ⟨w2, _, h1⟩ := ex_bind_ok.1 h1
      obtain ⟨dd, _, h1⟩ := ex_bind_ok.1 h1
      cases h1; rfl
    · cases h1; rfl
  rw [hk]
  rw [orErr_ok_iff] at a1 a2
  unfold cardNumber
  have hh : (splitWs c.1).headD [] = w0 := by
    rw [← splitOn_stringCleaner_headD]
    cases hw : splitOn ' ' (stringCleaner c.1) with
    | nil => rw [hw] at a1; simp at a1
    | cons a b => rw [hw] at a1; simpa using a1
  cases hw : splitWs c.1 with
  | nil =>
    rw [hw] at hh
    simp only [List.headD_nil] at hh
    rw [← hh] at a2
    have h0 : pyInt [] = none := by decide
    rw [h0] at a2; cases a2
  | cons a b =>
    rw [hw] at hh
    simp only [List.headD_cons] at hh
    subst hh
    exact a2

/-- C255: cells in another order are read the same. -/
theorem C255_cells (flt : Str → Option F) {top : List Str} (ht : NoCell top) {cs cs' : List (Str × List Str)} (h : ∀ c ∈ cs, FullCell c)
    (hn : OneNumber cs) (hne : cs ≠ []) (hp : cs.Perm cs') {d : Dict Int (Cell F)} (hd : processCellBlock flt (top ++ cardLines cs) = .ok d) :
    ∃ d', processCellBlock flt (top ++ cardLines cs') = .ok d' ∧ ∀ n, d.get n = d'.get n := by
  rw [cellBlock_eq flt ht h hne] at hd
  obtain ⟨d', h1, h2⟩ := fill_perm hp (fun a ha b hb n v w hv hw => hn a ha b hb
    ((readCell_number hv).trans (readCell_number hw).symm)) hd
  refine ⟨d', ?_, h2⟩
  rw [cellBlock_eq flt ht (fun c hc => h c (hp.mem_iff.2 hc)) (fun h0 => hne (by rw [h0] at hp; exact hp.eq_nil)), h1]

/-! ### Surfaces -/

/-- A line of the surface block that is left out: blank, or starting with c or C. -/
def Ignored (l : Str) : Prop := splitWs l = [] ∨ ∃ x ∈ l.head?, x = 'c' ∨ x = 'C'

/-- A surface: its first line and the lines up to the next surface. -/
structure SurfCard (c : Str × List Str) : Prop where
  first : ¬ Cont c.1 ∧ ¬ Ignored c.1
  body : ∀ l ∈ c.2, Cont l ∨ Ignored l

/-- Lines in front of the first surface. -/
def NoSurface (top : List Str) : Prop := ∀ l ∈ top, ¬ Cont l ∧ Ignored l

private theorem strip_nil_iff (l : Str) : strip l = [] ↔ splitWs l = [] := by
  rw [strip_eq_nil_iff, splitWs_eq_nil_iff]

private theorem c_iff (l : Str) : startsWith (lower l) p!"c" = true ↔ ∃ x ∈ l.head?, x = 'c' ∨ x = 'C' := by
  cases l with
  | nil => simp [lower, startsWith]
  | cons x t =>
    have : x.toLower = 'c' ↔ x = 'c' ∨ x = 'C' := toLower_eq_letter 'c' 'C' (by decide) (by decide) (by decide)
    simp only [lower, List.map_cons, startsWith, List.isPrefixOf, Bool.and_true, beq_iff_eq, List.head?_cons, Option.mem_def,
      Option.some.injEq, exists_eq_left']
    rw [eq_comm, this]

private def contText (body : List Str) : Str := (body.filter isContinueLine).flatMap (fun l => p!" " ++ stringCleaner l)

private def readSurf (c : Str × List Str) : Except Err (Int × Surface) := do
  let s ← processSurfaceLine (stringCleaner c.1 ++ contText c.2)
  pure (s.number, s)

private theorem surfBody (body rest : List Str) (h : ∀ l ∈ body, Cont l ∨ Ignored l) : ∀ (d : Dict Int Surface) (t : Str),
    (body ++ rest).foldlM surfStep (d, t) = rest.foldlM surfStep (d, t ++ contText body) := by
  induction body with
  | nil => intro d t; simp [contText]
  | cons l body ih =>
    intro d t
    rw [List.cons_append, List.foldlM_cons]
    by_cases hc : isContinueLine l = true
    · have : surfStep (d, t) l = .ok (d, t ++ p!" " ++ stringCleaner l) := by unfold surfStep; rw [if_pos hc]
      rw [this, ex_ok_bind, ih (fun l hl => h l (by simp [hl]))]
      simp [contText, List.filter_cons_of_pos hc]
    · have : surfStep (d, t) l = .ok (d, t) := by
        unfold surfStep
        rw [if_neg hc]
        rcases h l (by simp) with h1 | h1 | h1
        · exact absurd (isContinueLine_iff.2 h1) hc
        · rw [if_pos ((strip_nil_iff l).2 h1)]
        · by_cases hs : strip l = []
          · rw [if_pos hs]
          · rw [if_neg hs, if_pos ((c_iff l).2 h1)]
      rw [this, ex_ok_bind, ih (fun l hl => h l (by simp [hl]))]
      simp [contText, List.filter_cons_of_neg hc]

private theorem surfFirst (c : Str × List Str) (hc : SurfCard c) (d : Dict Int Surface) (t : Str) :
    surfStep (d, t) c.1 = (if t.length > 0 then do
      let s ← processSurfaceLine t
      pure (d.set s.number s, stringCleaner c.1) else .ok (d, stringCleaner c.1)) ∧ stringCleaner c.1 ≠ [] := by
  obtain ⟨h1, h2⟩ := hc.first
  have hw : splitWs c.1 ≠ [] := fun h => h2 (.inl h)
  constructor
  · unfold surfStep
    rw [if_neg (fun h => h1 (isContinueLine_iff.1 h)), if_neg (fun h => hw ((strip_nil_iff _).1 h)),
      if_neg (fun h => h2 (.inr ((c_iff _).1 h)))]
  · intro h
    apply hw
    rw [← splitWs_stringCleaner, h]; rfl

private theorem surfsRest (cs : List (Str × List Str)) (h : ∀ c ∈ cs, SurfCard c) : ∀ (d : Dict Int Surface) (t : Str), t ≠ [] →
    (do
      let st ← (cardLines cs).foldlM surfStep (d, t)
      if st.2.length > 0 then
        let s ← processSurfaceLine st.2
        pure (st.1.set s.number s)
      else pure st.1) =
    (do
      let s ← processSurfaceLine t
      fill readSurf cs (d.set s.number s)) := by
  induction cs with
  | nil =>
    intro d t ht
    have : t.length > 0 := List.length_pos_iff.2 ht
    simp only [cardLines, List.flatMap_nil, List.foldlM_nil, pure_bind, this, if_true, fill]
    rfl
  | cons c cs ih =>
    intro d t ht
    have e : cardLines (c :: cs) = c.1 :: (c.2 ++ cardLines cs) := by simp [cardLines]
    have hc := h c (by simp)
    rw [e, List.foldlM_cons, (surfFirst c hc d t).1, if_pos (List.length_pos_iff.2 ht)]
    cases hs : processSurfaceLine t with
    | error er => rfl
    | ok s =>
      simp only [ex_ok_bind, pure_bind, bind_assoc]
      rw [surfBody c.2 _ hc.body, ih (fun c hc => h c (by simp [hc])) _ _ (by simp [(surfFirst c hc d t).2])]
      simp only [fill, readSurf, bind_assoc, pure_bind]

private theorem surfTop (top rest : List Str) (h : NoSurface top) :
    (top ++ rest).foldlM surfStep (([], []) : Dict Int Surface × Str) = rest.foldlM surfStep ([], []) := by
  have : contText top = [] := by
    unfold contText
    rw [List.filter_eq_nil_iff.2 (fun l hl hc => (h l hl).1 (isContinueLine_iff.1 hc))]; rfl
  rw [surfBody top rest (fun l hl => .inr (h l hl).2), this]; rfl

private theorem surfBlock_eq {top : List Str} (ht : NoSurface top) {cs : List (Str × List Str)} (h : ∀ c ∈ cs, SurfCard c) :
    processSurfaceBlock (top ++ cardLines cs) = fill readSurf cs [] := by
  unfold processSurfaceBlock
  rw [surfTop top _ ht]
  cases cs with
  | nil => rfl
  | cons c cs =>
    have e : cardLines (c :: cs) = c.1 :: (c.2 ++ cardLines cs) := by simp [cardLines]
    have hc := h c (by simp)
    rw [e, List.foldlM_cons, (surfFirst c hc [] []).1, if_neg (by simp), ex_ok_bind, surfBody c.2 _ hc.body,
      surfsRest cs (fun c hc => h c (by simp [hc])) _ _ (by simp [(surfFirst c hc [] []).2])]
    simp only [fill, readSurf, bind_assoc, pure_bind]

private theorem readSurf_number {c : Str × List Str} (hc : SurfCard c) {n : Int} {s : Surface} (h : readSurf c = .ok (n, s)) :
    cardNumber c.1 = some n := by
  unfold readSurf at h
  obtain ⟨s', h1, h⟩ := ex_bind_ok.1 h
  cases h
  unfold processSurfaceLine at h1
  obtain ⟨w0, a1, h1⟩ := ex_bind_ok.1 h1
  obtain ⟨k, a2, h1⟩ := ex_bind_ok.1 h1
  obtain ⟨tr, _, h1⟩ := ex_bind_ok.1 h1
  have hk : s.number = k := by
    cases tr with
    | true =>
      simp only [if_true] at h1
      obtain ⟨ty, _, h1⟩ := ex_bind_ok.1 h1
      obtain ⟨t, _, h1⟩ := ex_bind_ok.1 h1
      simp only [pure_bind] at h1
      split_ifs at h1
      cases h1; rfl
    | false =>
      simp only [Bool.false_eq_true, if_false] at h1
      obtain ⟨ty, _, h1⟩ := ex_bind_ok.1 h1
      simp only [pure_bind] at h1
      split_ifs at h1
      cases h1; rfl
  rw [hk]
  rw [orErr_ok_iff] at a1 a2
  have hh : lower ((splitWs c.1).headD []) = w0 := by
    have e0 : (splitOn ' ' (lower (stringCleaner c.1 ++ contText c.2))).headD [] = w0 := by
      cases hw : splitOn ' ' (lower (stringCleaner c.1 ++ contText c.2)) with
      | nil => rw [hw] at a1; simp at a1
      | cons a b => rw [hw] at a1; simpa using a1
    rw [← e0, splitOn_headD, ← splitOn_stringCleaner_headD, splitOn_headD]
    have hlow : ∀ t : Str, (lower t).takeWhile (fun c => decide (c ≠ ' ')) = lower (t.takeWhile (fun c => decide (c ≠ ' '))) := by
      intro t
      unfold lower
      rw [List.takeWhile_map]
      congr 2
      funext x
      have : x.toLower = ' ' ↔ x = ' ' := toLower_eq_low (by decide)
      simp [this]
    rw [hlow]
    congr 1
    have hct : contText c.2 = [] ∨ ∃ t, contText c.2 = ' ' :: t := by
      unfold contText
      cases c.2.filter isContinueLine with
      | nil => exact .inl rfl
      | cons a b => exact .inr ⟨_, rfl⟩
    rcases hct with h0 | ⟨t, h0⟩
    · rw [h0, List.append_nil]
    · rw [h0, List.takeWhile_append]
      split_ifs with hl
      · rw [List.takeWhile_cons_of_neg (by decide), List.append_nil]
        exact (List.takeWhile_prefix _).eq_of_length hl
      · rfl
  unfold cardNumber
  cases hw : splitWs c.1 with
  | nil => exact absurd (.inl hw) hc.first.2
  | cons a b =>
    rw [hw] at hh
    simp only [List.headD_cons] at hh
    rw [← hh, pyInt_lower] at a2
    exact a2

/-- C255: surfaces in another order are read the same. -/
theorem C255_surfaces {top : List Str} (ht : NoSurface top) {cs cs' : List (Str × List Str)} (h : ∀ c ∈ cs, SurfCard c) (hn : OneNumber cs)
    (hp : cs.Perm cs') {d : Dict Int Surface} (hd : processSurfaceBlock (top ++ cardLines cs) = .ok d) :
    ∃ d', processSurfaceBlock (top ++ cardLines cs') = .ok d' ∧ ∀ n, d.get n = d'.get n := by
  rw [surfBlock_eq ht h] at hd
  obtain ⟨d', h1, h2⟩ := fill_perm hp (fun a ha b hb n v w hv hw => hn a ha b hb
    ((readSurf_number (h a ha) hv).trans (readSurf_number (h b hb) hw).symm)) hd
  exact ⟨d', by rw [surfBlock_eq ht (fun c hc => h c (hp.mem_iff.2 hc)), h1], h2⟩

/-! ### Each card on its own (C270) -/

private theorem fill_one {α V : Type} {f : α → Except Err (Int × V)} (a : α) (n : Int) (v : V) : fill f [a] [] = .ok [(n, v)] ↔ f a = .ok (n, v) := by
  unfold fill
  cases h : f a with
  | error e => simp [bind, Except.bind]
  | ok e => obtain ⟨k, w⟩ := e; simp [fill, bind, Except.bind, Dict.set]

private theorem fill_iff {α V : Type} {f : α → Except Err (Int × V)} {as : List α}
    (hk : ∀ a ∈ as, ∀ b ∈ as, ∀ n v w, f a = .ok (n, v) → f b = .ok (n, w) → a = b) {d : Dict Int V} (h : fill f as [] = .ok d) (n : Int) (v : V) :
    d.get n = some v ↔ ∃ a ∈ as, f a = .ok (n, v) := by
  have hnil : Dict.get ([] : Dict Int V) n = none := rfl
  constructor
  · intro hv
    rcases fill_ok h n v hv with h | h
    · exact h
    · rw [hnil] at h; cases h
  · rintro ⟨a, ha, hv⟩
    have := fill_get h (n := n) (.inl ⟨a, ha, v, hv⟩)
    obtain ⟨w, hw⟩ := Option.isSome_iff_exists.1 this
    rcases fill_ok h n w hw with ⟨b, hb, hbw⟩ | h
    · have := hk a ha b hb n v w hv hbw
      subst this
      rw [hv] at hbw
      cases hbw; exact hw
    · rw [hnil] at h; cases h

/-- C270: a cell block gives for each cell what the lines of this cell alone give, and is readable when each cell is. -/
theorem C270_cells (flt : Str → Option F) {top : List Str} (ht : NoCell top) {cs : List (Str × List Str)} (h : ∀ c ∈ cs, FullCell c)
    (hn : OneNumber cs) (hne : cs ≠ []) :
    ((∃ d, processCellBlock flt (top ++ cardLines cs) = .ok d) ↔ ∀ c ∈ cs, ∃ d, processCellBlock flt (cardLines [c]) = .ok d) ∧
    ∀ d, processCellBlock flt (top ++ cardLines cs) = .ok d →
      ∀ n cell, d.get n = some cell ↔ ∃ c ∈ cs, processCellBlock flt (cardLines [c]) = .ok [(n, cell)] := by
  have one : ∀ c ∈ cs, processCellBlock flt (cardLines [c]) = fill (readCell flt) [c] [] := by
    intro c hc
    exact cellBlock_eq flt (top := []) (by intro l hl; cases hl) (by intro x hx; rw [List.mem_singleton.1 hx]; exact h c hc) (by simp)
  rw [cellBlock_eq flt ht h hne]
  constructor
  · constructor
    · rintro ⟨d, hd⟩ c hc
      rw [one c hc]
      exact fill_total (fun x hx => by rw [List.mem_singleton.1 hx]; exact fill_each hd c hc) []
    · intro ha
      refine fill_total (fun c hc => ?_) []
      obtain ⟨d, hd⟩ := ha c hc
      rw [one c hc] at hd
      exact fill_each hd c (by simp)
  · intro d hd n cell
    rw [fill_iff (fun a ha b hb n v w hv hw => hn a ha b hb ((readCell_number hv).trans (readCell_number hw).symm)) hd]
    constructor
    · rintro ⟨c, hc, hv⟩
      exact ⟨c, hc, by rw [one c hc]; exact (fill_one c n cell).2 hv⟩
    · rintro ⟨c, hc, hv⟩
      rw [one c hc] at hv
      exact ⟨c, hc, (fill_one c n cell).1 hv⟩

/-- C270: the same for the surfaces. -/
theorem C270_surfaces {top : List Str} (ht : NoSurface top) {cs : List (Str × List Str)} (h : ∀ c ∈ cs, SurfCard c) (hn : OneNumber cs) :
    ((∃ d, processSurfaceBlock (top ++ cardLines cs) = .ok d) ↔ ∀ c ∈ cs, ∃ d, processSurfaceBlock (cardLines [c]) = .ok d) ∧
    ∀ d, processSurfaceBlock (top ++ cardLines cs) = .ok d →
      ∀ n s, d.get n = some s ↔ ∃ c ∈ cs, processSurfaceBlock (cardLines [c]) = .ok [(n, s)] := by
  have one : ∀ c ∈ cs, processSurfaceBlock (cardLines [c]) = fill readSurf [c] [] := by
    intro c hc
    exact surfBlock_eq (top := []) (by intro l hl; cases hl) (by intro x hx; rw [List.mem_singleton.1 hx]; exact h c hc)
  rw [surfBlock_eq ht h]
  constructor
  · constructor
    · rintro ⟨d, hd⟩ c hc
      rw [one c hc]
      exact fill_total (fun x hx => by rw [List.mem_singleton.1 hx]; exact fill_each hd c hc) []
    · intro ha
      refine fill_total (fun c hc => ?_) []
      obtain ⟨d, hd⟩ := ha c hc
      rw [one c hc] at hd
      exact fill_each hd c (by simp)
  · intro d hd n s
    rw [fill_iff (fun a ha b hb n v w hv hw => hn a ha b hb ((readSurf_number (h a ha) hv).trans (readSurf_number (h b hb) hw).symm)) hd]
    constructor
    · rintro ⟨c, hc, hv⟩
      exact ⟨c, hc, by rw [one c hc]; exact (fill_one c n s).2 hv⟩
    · rintro ⟨c, hc, hv⟩
      rw [one c hc] at hv
      exact ⟨c, hc, (fill_one c n s).1 hv⟩

/-- C255: an input whose cells and surfaces are put into another order. It can be read if the first one can; every cell and every surface is
    found under its number as before, and all else is the same. -/
theorem C255_input (flt : Str → Option F) (path path' : Str) {title stop : List Str} {cs cs' ss ss' : List (Str × List Str)} {data : List Str}
    (hcb : ∀ l ∈ title ++ cardLines cs, ¬ Spec.Blank l) (ht : NoCell title) (hc : ∀ c ∈ cs, FullCell c) (hcn : OneNumber cs) (hne : cs ≠ [])
    (hcp : cs.Perm cs') (hsb : ∃ x s, stop = x :: s ∧ Spec.Blank x ∧ ∀ l ∈ s ++ cardLines ss, ¬ Spec.Blank l) (hst : NoSurface stop)
    (hs : ∀ c ∈ ss, SurfCard c) (hsn : OneNumber ss) (hsp : ss.Perm ss') (hdb : ∃ y d, data = y :: d ∧ Spec.Blank y) {i : Input F}
    (hi : readLines flt path ((title ++ cardLines cs) ++ (stop ++ cardLines ss) ++ data) = .ok i) :
    ∃ j, readLines flt path' ((title ++ cardLines cs') ++ (stop ++ cardLines ss') ++ data) = .ok j ∧
      (∀ n, i.cells.get n = j.cells.get n) ∧ (∀ n, i.surfaces.get n = j.surfaces.get n) ∧ i.mode = j.mode ∧ i.talNums = j.talNums ∧
      i.matNums = j.matNums ∧ i.materials = j.materials ∧ i.tallies = j.tallies ∧ i.isVoid = j.isVoid ∧ i.isKcode = j.isKcode ∧
      i.isSdef = j.isSdef ∧ i.isPtrac = j.isPtrac := by
  have pl : ∀ {a b : List (Str × List Str)}, a.Perm b → (cardLines a).Perm (cardLines b) := fun h => h.flatMap_right _
  have hsplit : ∀ {cs1 ss1 : List (Str × List Str)}, cs.Perm cs1 → ss.Perm ss1 →
      splitBlocs ((title ++ cardLines cs1) ++ (stop ++ cardLines ss1) ++ data) = .ok (title ++ cardLines cs1, stop ++ cardLines ss1, data) := by
    intro cs1 ss1 h1 h2
    rw [C78_blocks]
    obtain ⟨x, s, rfl, hx, hs⟩ := hsb
    refine ⟨rfl, fun l hl => hcb l (((pl h1).append_left title).mem_iff.2 hl), ⟨x, s ++ cardLines ss1, rfl, hx,
      fun l hl => hs l (((pl h2).append_left s).mem_iff.2 hl)⟩, hdb⟩
  unfold readLines at hi
  rw [hsplit (.refl _) (.refl _)] at hi
  obtain ⟨_, h0, hi⟩ := ex_bind_ok.1 hi
  cases h0
  obtain ⟨ce, hce, hi⟩ := ex_bind_ok.1 hi
  obtain ⟨sf, hsf, hi⟩ := ex_bind_ok.1 hi
  obtain ⟨tn, ht', hi⟩ := ex_bind_ok.1 hi
  obtain ⟨mn, hm', hi⟩ := ex_bind_ok.1 hi
  obtain ⟨ms, hms, hi⟩ := ex_bind_ok.1 hi
  cases hi
  obtain ⟨ce', k1, k2⟩ := C255_cells flt ht hc hcn hne hcp hce
  obtain ⟨sf', k3, k4⟩ := C255_surfaces hst hs hsn hsp hsf
  refine ⟨_, by unfold readLines; rw [hsplit hcp hsp]; simp only [ex_ok_bind, k1, k3, ht', hm', hms]; rfl, ?_⟩
  exact ⟨k2, k4, rfl, rfl, rfl, rfl, rfl, rfl, rfl, rfl, rfl⟩

private def someCells : List (Str × List Str) := [(p!"1 1 -2.5 -1 2", [p!"     3 imp:n=1", p!"c next"]), (p!"2 0 1 imp:n=0", [])]
private def someSurfs : List (Str × List Str) := [(p!"1 so 5", []), (p!"2 px", [p!"     1", p!"c next"])]

example : (∀ c ∈ someCells, FullCell c) ∧ OneNumber someCells := by
  constructor
  · have : ∀ c ∈ someCells, (c.1.head?.any (fun x => isDigit x) = true) ∧ ∀ l ∈ c.2, l.head?.any (fun x => !isDigit x) = true := by
      decide +kernel
    intro c hc
    obtain ⟨h1, h2⟩ := this c hc
    rw [Option.any_eq_true] at h1
    refine ⟨by obtain ⟨x, hx, h⟩ := h1; exact ⟨x, hx, h⟩, fun l hl => ?_⟩
    obtain ⟨x, hx, h⟩ := (Option.any_eq_true _ _).1 (h2 l hl)
    exact ⟨x, hx, by simpa using h⟩
  · unfold OneNumber; decide +kernel

example : OneNumber someSurfs := by unfold OneNumber; decide +kernel

example : ∀ c ∈ someSurfs, SurfCard c := by
  intro c hc
  rcases List.mem_cons.1 hc with rfl | hc
  · refine ⟨⟨by decide, ?_⟩, by simp⟩
    rintro (h | ⟨x, hx, h⟩)
    · revert h; decide +kernel
    · simp only [List.head?_cons, Option.mem_def, Option.some.injEq] at hx
      subst hx; revert h; decide
  · rw [List.mem_singleton.1 hc]
    refine ⟨⟨by decide, ?_⟩, ?_⟩
    · rintro (h | ⟨x, hx, h⟩)
      · revert h; decide +kernel
      · simp only [List.head?_cons, Option.mem_def, Option.some.injEq] at hx
        subst hx; revert h; decide
    · intro l hl
      rcases List.mem_cons.1 hl with rfl | hl
      · exact .inl (by decide)
      · rw [List.mem_singleton.1 hl]; exact .inr (.inr ⟨'c', rfl, .inl rfl⟩)

example : NoCell [p!"title"] := fun l hl => by rw [List.mem_singleton.1 hl]; exact ⟨'t', rfl, by decide⟩

example : NoSurface [[]] := fun l hl => by rw [List.mem_singleton.1 hl]; exact ⟨by decide, .inl rfl⟩

example : (readLines (fun s : Str => if s = p!"-2.5" then some (-5 / 2 : ℚ) else (pyInt s).map (fun z => (z : ℚ))) []
    ((([p!"title"] ++ cardLines someCells) ++ ([[]] ++ cardLines someSurfs)) ++ [[], p!"mode n"])).isOk = true := by decide +kernel

/-! ### C288 -/

private theorem fill_keep {α V : Type} {f : α → Except Err (Int × V)} {ys : List α} {d d' : Dict Int V} (h : fill f ys d = .ok d') {n : Int}
    (hy : ∀ y ∈ ys, ∀ w, f y ≠ .ok (n, w)) : d'.get n = d.get n := by
  induction ys generalizing d with
  | nil => cases h; rfl
  | cons y ys ih =>
    obtain ⟨e, h1, h2⟩ := ex_bind_ok.1 h
    rw [ih h2 (fun z hz => hy z (by simp [hz]))]
    apply Dict.get_set_ne
    rintro rfl
    exact hy y (by simp) e.2 h1

private theorem fill_last {α V : Type} {f : α → Except Err (Int × V)} {xs ys : List α} {c : α} {d d' : Dict Int V}
    (h : fill f (xs ++ c :: ys) d = .ok d') {n : Int} {v : V} (hc : f c = .ok (n, v)) (hy : ∀ y ∈ ys, ∀ w, f y ≠ .ok (n, w)) :
    d'.get n = some v := by
  induction xs generalizing d with
  | nil =>
    obtain ⟨e, h1, h2⟩ := ex_bind_ok.1 h
    rw [hc] at h1
    cases h1
    rw [fill_keep h2 hy, Dict.get_set_self]
  | cons x xs ih =>
    obtain ⟨e, h1, h2⟩ := ex_bind_ok.1 h
    exact ih h2

/-- C288 is violated: cells with the same number are accepted whenever each of them is readable, and the last one is kept. For every cell block. -/
theorem C288_cells_violated (flt : Str → Option F) {top : List Str} (ht : NoCell top) {cs : List (Str × List Str)} (h : ∀ c ∈ cs, FullCell c)
    (hne : cs ≠ []) :
    ((∃ d, processCellBlock flt (top ++ cardLines cs) = .ok d) ↔ ∀ c ∈ cs, ∃ d, processCellBlock flt (cardLines [c]) = .ok d) ∧
    ∀ d, processCellBlock flt (top ++ cardLines cs) = .ok d → ∀ xs c ys, cs = xs ++ c :: ys → (∀ y ∈ ys, cardNumber y.1 ≠ cardNumber c.1) →
      ∀ n cell, processCellBlock flt (cardLines [c]) = .ok [(n, cell)] → d.get n = some cell := by
  have one : ∀ c ∈ cs, processCellBlock flt (cardLines [c]) = fill (readCell flt) [c] [] := by
    intro c hc
    exact cellBlock_eq flt (top := []) (by intro l hl; cases hl) (by intro x hx; rw [List.mem_singleton.1 hx]; exact h c hc) (by simp)
  rw [cellBlock_eq flt ht h hne]
  constructor
  · constructor
    · rintro ⟨d, hd⟩ c hc
      rw [one c hc]
      exact fill_total (fun x hx => by rw [List.mem_singleton.1 hx]; exact fill_each hd c hc) []
    · intro ha
      refine fill_total (fun c hc => ?_) []
      obtain ⟨d, hd⟩ := ha c hc
      rw [one c hc] at hd
      exact fill_each hd c (by simp)
  · intro d hd xs c ys hcs hy n cell hc
    rw [one c (by rw [hcs]; simp)] at hc
    have hc := (fill_one c n cell).1 hc
    subst hcs
    exact fill_last hd hc (fun y hy' w hw => hy y hy' ((readCell_number hw).trans (readCell_number hc).symm))

/-- C288 is violated: the same for surfaces. -/
theorem C288_surfaces_violated {top : List Str} (ht : NoSurface top) {cs : List (Str × List Str)} (h : ∀ c ∈ cs, SurfCard c) :
    ((∃ d, processSurfaceBlock (top ++ cardLines cs) = .ok d) ↔ ∀ c ∈ cs, ∃ d, processSurfaceBlock (cardLines [c]) = .ok d) ∧
    ∀ d, processSurfaceBlock (top ++ cardLines cs) = .ok d → ∀ xs c ys, cs = xs ++ c :: ys → (∀ y ∈ ys, cardNumber y.1 ≠ cardNumber c.1) →
      ∀ n s, processSurfaceBlock (cardLines [c]) = .ok [(n, s)] → d.get n = some s := by
  have one : ∀ c ∈ cs, processSurfaceBlock (cardLines [c]) = fill readSurf [c] [] := by
    intro c hc
    exact surfBlock_eq (top := []) (by intro l hl; cases hl) (by intro x hx; rw [List.mem_singleton.1 hx]; exact h c hc)
  rw [surfBlock_eq ht h]
  constructor
  · constructor
    · rintro ⟨d, hd⟩ c hc
      rw [one c hc]
      exact fill_total (fun x hx => by rw [List.mem_singleton.1 hx]; exact fill_each hd c hc) []
    · intro ha
      refine fill_total (fun c hc => ?_) []
      obtain ⟨d, hd⟩ := ha c hc
      rw [one c hc] at hd
      exact fill_each hd c (by simp)
  · intro d hd xs c ys hcs hy n s hc
    have hcm : c ∈ cs := by rw [hcs]; simp
    rw [one c hcm] at hc
    have hc := (fill_one c n s).1 hc
    subst hcs
    exact fill_last hd hc (fun y hy' w hw => hy y hy' ((readSurf_number (h y (by simp [hy'])) hw).trans (readSurf_number (h c hcm) hc).symm))

end Props
