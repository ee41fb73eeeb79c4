/- Properties C104, C138, C139, C196, C198 of mcnp_output_reader.py: results with bins. -/
import Verif.Props.McnpOutput2
import Verif.Props.McnpOutput4
import Verif.Props.McnpOutput5
import Verif.Props.McnpOutput6

set_option linter.unusedSectionVars false
set_option linter.unusedSimpArgs false

namespace Props
open Py NeutUtilities McnpOutput
variable {F : Type}

private theorem find_append {text : Str} {k : Nat} (hk : text.length = k) {a b : List Str} {x : Str} (ha : ∀ y ∈ a, ¬ text <+: y)
    (hx : text <+: x) : findLine text (a ++ x :: b) k = .ok a.length := by
  rw [findLine_prefix hk]
  refine ⟨⟨x, by simp, hx⟩, ?_⟩
  rintro j hj ⟨y, hy, hp⟩
  rw [List.getElem?_append_left hj] at hy
  exact ha y (List.mem_of_getElem? hy) hp

private theorem ind_append {sub : Str} {a b : List Str} {x : Str} (ha : ∀ y ∈ a, ¬ sub <:+: y)
    (hx : sub <:+: x) : findInd (a ++ x :: b) sub = .ok a.length := by
  rw [findInd_eq, orErr_ok_iff, findIdx?_isLeast]
  refine ⟨⟨x, by simp, hasSub_iff.2 hx⟩, ?_⟩
  rintro j hj ⟨y, hy, hp⟩
  rw [List.getElem?_append_left hj] at hy
  exact ha y (List.mem_of_getElem? hy) (hasSub_iff.1 hp)

private theorem at_append (pre : List Str) (x : Str) (l : List Str) (i : Nat) : at' (pre ++ x :: l) (pre.length + 1 + i) = at' l i := by
  unfold at'
  rw [List.getElem?_append_right (by omega), show pre.length + 1 + i - pre.length = i + 1 by omega]
  rfl

private theorem drop_append (pre : List Str) (x : Str) (l : List Str) (i : Nat) : (pre ++ x :: l).drop (pre.length + 1 + i) = l.drop i := by
  rw [List.drop_append, List.drop_eq_nil_of_le (by omega), show pre.length + 1 + i - pre.length = i + 1 by omega]
  rfl

private theorem slice_append (pre : List Str) (x : Str) (l : List Str) (i j : Nat) :
    slice (pre ++ x :: l) (pre.length + 1 + i) (pre.length + 1 + j) = slice l i j := by
  unfold slice
  rw [List.drop_take, List.drop_take, drop_append]
  congr 1
  omega

private theorem energy_lines {flt : Str → Option F} {lines : List Str} {es : List (F × F × F)} (h : List.Forall₂ (EnergyRow flt) lines es) :
    processEnergyLines flt lines = .ok (es.map (·.1), es.map (·.2.1), es.map (·.2.2)) := by
  have : lines.mapM (energyLine flt) = .ok es := by
    rw [mapM_except_ok_iff]
    exact h.imp (fun _ _ h => energyRow_ok h)
  unfold processEnergyLines
  rw [this]
  rfl

private theorem general_keeps {flt : Str → Option F} {lines : List Str} {t t' : Tally F} (h : type5General flt t lines = .ok t') :
    t'.result = t.result ∧ t'.err = t.err ∧ t'.eng = t.eng ∧ t'.times = t.times := by
  unfold type5General at h
  simp only [ex_bind_ok, ex_pure, Except.ok.injEq] at h
  obtain ⟨_, _, _, _, _, _, _, _, _, _, _, _, _, _, _, _, _, _, _, _, _, _, _, _, _, _, rfl⟩ := h
  exact ⟨rfl, rfl, rfl, rfl⟩

/-! ### C139: point detectors without user bins -/

/-- Energy bins only: energies, results and errors of all lines between the heading and the total, in their order. -/
theorem C139_energy_partial [LinearOrder F] {flt : Str → Option F} {t t' : Tally F} {pre rows post : List Str} {det tot : Str}
    {es : List (F × F × F)} (hp : ∀ l ∈ pre, ¬ p!" detector located" <+: l) (hd : p!" detector located" <+: det)
    (hr : List.Forall₂ (EnergyRow flt) rows es) (hn : ∀ l ∈ rows, ¬ p!"      total" <+: l) (ht : p!"      total" <+: tot)
    (h : readType5 flt t (pre ++ det :: p!"      energy   " :: (rows ++ tot :: post)) = .ok t') :
    t'.eng = some (es.map (·.1)) ∧ t'.result = .items (es.map (fun e => .num e.2.1)) ∧ t'.err = .items (es.map (fun e => .num e.2.2)) := by
  unfold readType5 at h
  rw [find_append (k := 17) rfl hp hd, ex_ok_bind] at h
  simp only [ex_bind_ok] at h
  obtain ⟨l, _, p, _, t1, h1, h2⟩ := h
  obtain ⟨e1, e2, e3, _⟩ := general_keeps h2
  rw [e1, e2, e3]
  have hat : at' (pre ++ det :: p!"      energy   " :: (rows ++ tot :: post)) (pre.length + 1) = .ok p!"      energy   " :=
    at_append pre det _ 0
  have hfind : findLine p!"      total" ((pre ++ det :: p!"      energy   " :: (rows ++ tot :: post)).drop (pre.length + 1)) 11 =
      .ok (rows.length + 1) := by
    rw [show pre.length + 1 = pre.length + 1 + 0 from rfl, drop_append, List.drop_zero]
    have := find_append (show p!"      total".length = 11 from rfl) (a := p!"      energy   " :: rows) (b := post) (x := tot) (by
      intro y hy
      rcases List.mem_cons.1 hy with rfl | hy
      · decide
      · exact hn y hy) ht
    simpa using this
  have hsl : slice (pre ++ det :: p!"      energy   " :: (rows ++ tot :: post)) (pre.length + 2) (pre.length + (rows.length + 1) + 1) = rows := by
    rw [show pre.length + 2 = pre.length + 1 + 1 from rfl, show pre.length + (rows.length + 1) + 1 = pre.length + 1 + (rows.length + 1) by omega,
      slice_append]
    simp [slice]
  unfold type5Result at h1
  rw [hat] at h1
  simp only [ex_ok_bind, if_true, hfind, hsl, energy_lines hr, ex_pure, Except.ok.injEq] at h1
  subst h1
  refine ⟨rfl, ?_, ?_⟩ <;> simp [List.map_map, Function.comp_def]

/-- Times, energies, values and errors of energy and time blocks with `k` rows: row `i` holds the values of row `i` of every block. -/
def EtData [LinearOrder F] (k : Nat) (bs : List (EtBlock F)) (ts es : List F) (V U : List (List F)) : Prop :=
  SortedOnce (bs.flatMap (·.times)) ts ∧ SortedOnce (bs.flatMap (fun b => b.rows.map (·.energy))) es ∧
    V.length = k ∧ U.length = k ∧ ∀ i < k,
      V[i]? = some (bs.flatMap (fun b => (b.rows[i]?.map (fun r => r.pairs.map (·.1))).getD [])) ∧
      U[i]? = some (bs.flatMap (fun b => (b.rows[i]?.map (fun r => r.pairs.map (·.2))).getD []))

private theorem etData_of [LinearOrder F] {flt : Str → Option F} {k : Nat} (hk : 0 < k) {bs : List (EtBlock F)} (hne : bs ≠ [])
    (h : ∀ b ∈ bs, ∃ n, b.WF flt k n) {gap : List Str} (hg : ∀ l ∈ gap, ¬ p!"time:" <+: strip l) :
    ∃ r, processEtUserbin flt (bs.flatMap EtBlock.lines ++ gap) = .ok r ∧ EtData k bs r.1 r.2.1 r.2.2.1 r.2.2.2 := by
  rw [C141_gap hk h hg]
  obtain ⟨ts, es, V, U, h1, h2⟩ := C141_blocks hk hne h
  exact ⟨(ts, es, V, U), h1, h2⟩

private theorem strip_infix {s l : Str} (h : s <+: strip l) : s <:+: l := by
  obtain ⟨a, b, h0, _, _⟩ := strip_decomp l
  obtain ⟨r, hr⟩ := h
  refine ⟨a, r ++ b, ?_⟩
  conv_rhs => rw [h0, ← hr]
  simp

/-- Energy and time bins without user bins: the data of all blocks up to the next line about the detector. -/
theorem C139_energy_time_partial [LinearOrder F] {flt : Str → Option F} {t t' : Tally F} {k : Nat} (hk : 0 < k) {bs : List (EtBlock F)}
    (hne : bs ≠ []) (hb : ∀ b ∈ bs, ∃ n, b.WF flt k n) {pre gap post : List Str} {det nxt : Str}
    (hg : ∀ l ∈ gap, ¬ p!"time:" <+: strip l) (hp : ∀ l ∈ pre, ¬ p!" detector located" <+: l) (hd : p!" detector located" <+: det)
    (hn : ∀ l ∈ bs.flatMap EtBlock.lines ++ gap, ¬ p!" det" <+: l) (hx : p!" det" <+: nxt)
    (h : readType5 flt t (pre ++ det :: (bs.flatMap EtBlock.lines ++ gap ++ nxt :: post)) = .ok t') :
    ∃ ts es V U, t'.times = some (.nums ts) ∧ t'.eng = some es ∧ t'.result = .mat V ∧ t'.err = .mat U ∧ EtData k bs ts es V U := by
  obtain ⟨r, hr, hdata⟩ := etData_of hk hne hb hg
  unfold readType5 at h
  rw [find_append (k := 17) rfl hp hd, ex_ok_bind] at h
  simp only [ex_bind_ok] at h
  obtain ⟨l, _, p, _, t1, h1, h2⟩ := h
  obtain ⟨e1, e2, e3, e4⟩ := general_keeps h2
  rw [e1, e2, e3, e4]
  obtain ⟨b, bs', rfl⟩ := List.exists_cons_of_ne_nil hne
  obtain ⟨n, hw⟩ := hb b (by simp)
  have hat : at' (pre ++ det :: ((b :: bs').flatMap EtBlock.lines ++ gap ++ nxt :: post)) (pre.length + 1) = .ok b.timeLine := by
    rw [show pre.length + 1 = pre.length + 1 + 0 from rfl, at_append]; rfl
  have htime : hasSub p!"time" b.timeLine = true := by
    refine hasSub_iff.2 (List.IsInfix.trans ?_ (strip_infix hw.1.1))
    exact ⟨[], p!":", rfl⟩
  have hne1 : b.timeLine ≠ p!"      energy   " := by
    intro he
    have := hw.1.1
    rw [he] at this
    revert this; decide
  have hfind : findLine p!" det" ((pre ++ det :: ((b :: bs').flatMap EtBlock.lines ++ gap ++ nxt :: post)).drop (pre.length + 1)) 4 =
      .ok ((b :: bs').flatMap EtBlock.lines ++ gap).length := by
    rw [show pre.length + 1 = pre.length + 1 + 0 from rfl, drop_append, List.drop_zero]
    exact find_append rfl hn hx
  have hsl : slice (pre ++ det :: ((b :: bs').flatMap EtBlock.lines ++ gap ++ nxt :: post)) (pre.length + 1)
      (pre.length + 1 + ((b :: bs').flatMap EtBlock.lines ++ gap).length) = (b :: bs').flatMap EtBlock.lines ++ gap := by
    refine (slice_append pre det _ 0 _).trans ?_
    unfold slice
    rw [List.drop_zero, List.take_append_of_le_length (le_refl _), List.take_length]
  unfold type5Result at h1
  rw [hat, ex_ok_bind, if_neg hne1, if_pos htime, hfind, ex_ok_bind, hsl, hr] at h1
  simp only [ex_ok_bind, ex_pure, Except.ok.injEq] at h1
  subst h1
  exact ⟨_, _, _, _, rfl, rfl, rfl, rfl, hdata⟩

/-- A detector with two energies, and one with energies and times. -/
example : (type5Result pyNat (⟨5, '5', [], .inr 0, .items [], .items [], none, none, none, none, [], [], [], [], none, none, none, none, none, []⟩ : Tally Nat) [p!" detector located", p!"      energy   ",
    p!"    1   10 2", p!"    3   30 4", p!"      total      40 6"] 0).map (fun t => (t.eng, t.result)) =
    .ok (some [1, 3], .items [.num 10, .num 30]) := by decide +kernel
example : (type5Result pyNat (⟨5, '5', [], .inr 0, .items [], .items [], none, none, none, none, [], [], [], [], none, none, none, none, none, []⟩ : Tally Nat) [p!" detector located", p!" time:  7 8", p!" energy ",
    p!" 1 10 2 11 3", p!" 3 30 4 31 5", p!" total 1 1 1 1", p!" detector located"] 0).map (fun t => (t.times, t.eng, t.result)) =
    .ok (some (.nums [7, 8]), some [1, 3], .mat [[10, 11], [30, 31]]) := by decide +kernel
example : EnergyRow pyNat p!"    1   10 2" (1, 10, 2) :=
  ⟨p!"    ", p!"1", p!"10", p!"2", [], rfl, by unfold Spec.Blank; decide, by unfold Spec.Blank; decide, ⟨by decide, by decide⟩, ⟨by decide, by decide⟩, ⟨by decide, by decide⟩, rfl, rfl, rfl⟩

/-! ### C104: pulse height tallies with energy bins -/

/-- For cell 2 with energy bins the energies, results and errors of all lines up to the total are returned. -/
theorem C104_energy_partial (flt : Str → Option F) (t : Tally F) {pre rows post : List Str} {l tot : Str} {es : List (F × F × F)}
    (hp : ∀ l ∈ pre, ¬ p!" cell  2" <+: l) (hl : l = p!" cell  2" ∨ ∃ r, l = p!" cell  2 " ++ r)
    (hr : List.Forall₂ (EnergyRow flt) rows es) (hn : ∀ l ∈ rows, ¬ p!"      total    " <+: l) (ht : p!"      total    " <+: tot) :
    readType8 flt t (pre ++ l :: p!"      energy   " :: (rows ++ tot :: post)) = .ok { t with
      cells := [p!"2"], eng := some (es.map (·.1)), result := .items (es.map (fun e => .num e.2.1)),
      err := .items (es.map (fun e => .num e.2.2)) } := by
  have hpre : p!" cell  2" <+: l := by
    rcases hl with rfl | ⟨r, rfl⟩
    · exact List.prefix_refl _
    · exact ⟨' ' :: r, by simp⟩
  have hat : at' (pre ++ l :: p!"      energy   " :: (rows ++ tot :: post)) (pre.length + 1) = .ok p!"      energy   " :=
    at_append pre l _ 0
  have hfind : findLine p!"      total    " ((pre ++ l :: p!"      energy   " :: (rows ++ tot :: post)).drop (pre.length + 1)) 15 =
      .ok (rows.length + 1) := by
    rw [show pre.length + 1 = pre.length + 1 + 0 from rfl, drop_append, List.drop_zero]
    have := find_append (show p!"      total    ".length = 15 from rfl) (a := p!"      energy   " :: rows) (b := post) (x := tot) (by
      intro y hy
      rcases List.mem_cons.1 hy with rfl | hy
      · decide
      · exact hn y hy) ht
    simpa using this
  have hsl : slice (pre ++ l :: p!"      energy   " :: (rows ++ tot :: post)) (pre.length + 2) (pre.length + 1 + (rows.length + 1)) = rows := by
    rw [show pre.length + 2 = pre.length + 1 + 1 from rfl, slice_append]
    simp [slice]
  unfold readType8
  rw [find_append (k := 8) rfl hp hpre, ex_ok_bind, hat, ex_ok_bind]
  simp only [if_true, hfind, ex_ok_bind, hsl, energy_lines hr, ex_pure]
  simp [List.map_map, Function.comp_def]

/-- A spectrum of cell 2. -/
example : (readType8 pyNat (⟨8, '8', [], .inr 0, .items [], .items [], none, none, none, none, [], [], [], [], none, none, none, none, none, []⟩ : Tally Nat) [p!"x", p!" cell  2", p!"      energy   ", p!"    1   10 2",
    p!"    3   30 4", p!"      total          40 6"]).map (fun t => (t.eng, t.result, t.err)) =
    .ok (some [1, 3], .items [.num 10, .num 30], .items [.num 2, .num 4]) := by decide +kernel

/-! ### C138: a single surface -/

private theorem withTable_surfaces {t t' : Tally F} {r : Dict Nat (List (F × F × F)) × Dict Nat (F × F)} (h : withTable t r = .ok t') :
    t'.surfaces = t.surfaces := by
  unfold withTable at h
  simp only [ex_bind_ok, ex_pure, Except.ok.injEq] at h
  obtain ⟨_, _, rfl⟩ := h; rfl

private theorem surfTimes_surfaces [LinearOrder F] {flt : Str → Option F} {lines : List Str} {first : Nat} {t t' : Tally F}
    (h : surfTimes flt t lines first = .ok t') : t'.surfaces = t.surfaces := by
  unfold surfTimes at h
  simp only [ex_bind_ok] at h
  obtain ⟨e, _, l2, _, h⟩ := h
  split at h
  · split at h
    · simp only [ex_bind_ok, ex_pure, Except.ok.injEq] at h
      obtain ⟨_, _, _, _, rfl⟩ := h; rfl
    · simp only [ex_bind_ok, ex_pure, Except.ok.injEq] at h
      obtain ⟨_, _, rfl⟩ := h; rfl
  · split at h
    · simp only [ex_bind_ok, ex_pure, Except.ok.injEq] at h
      obtain ⟨_, _, rfl⟩ := h; rfl
    · simp only [ex_bind_ok, ex_pure, Except.ok.injEq] at h
      obtain ⟨_, _, _, _, rfl⟩ := h; rfl

/-- The surfaces are those found first, and a section with times is read by `surfTimes`. -/
private theorem surface_inv [LinearOrder F] {flt : Str → Option F} {minusOne : F} {enum : List Str → List Str} {lines : List Str}
    {t t' : Tally F} (h : readTypeSurface flt minusOne enum t lines = .ok t') :
    ∃ t2, (t.tallyType = '1' → t2.surfaces = enum (getType1SurfaceNumbers lines).dedup) ∧ t'.surfaces = t2.surfaces ∧
      ∃ first l1, findLine p!" surface " lines 9 = .ok first ∧ at' lines (first + 1) = .ok l1 ∧
        (¬ p!"energy" <:+: l1 → ¬ p!"angle" <:+: l1 → p!"time" <:+: l1 → surfTimes flt t2 lines first = .ok t') := by
  unfold readTypeSurface at h
  extract_lets jp at h
  have key : ∀ t1, t1.tallyType = t.tallyType → jp t1 = .ok t' →
      ∃ t2, (t.tallyType = '1' → t2.surfaces = enum (getType1SurfaceNumbers lines).dedup) ∧ t'.surfaces = t2.surfaces ∧
      ∃ first l1, findLine p!" surface " lines 9 = .ok first ∧ at' lines (first + 1) = .ok l1 ∧
        (¬ p!"energy" <:+: l1 → ¬ p!"angle" <:+: l1 → p!"time" <:+: l1 → surfTimes flt t2 lines first = .ok t') := by
    intro t1 e1 h
    simp only [jp] at h
    generalize ht2 : (if t1.tallyType = '1' then { t1 with surfaces := enum (getType1SurfaceNumbers lines).dedup } else t1) = t2 at h
    simp only [ex_bind_ok] at h
    obtain ⟨first, hf, l1, hl1, h⟩ := h
    refine ⟨t2, ?_, ?_, first, l1, hf, hl1, ?_⟩
    · intro h1
      rw [if_pos (e1.trans h1)] at ht2
      rw [← ht2]
    · split at h
      · simp only [ex_bind_ok] at h
        obtain ⟨r, _, h⟩ := h
        exact withTable_surfaces h
      · split at h
        · simp only [ex_bind_ok] at h
          obtain ⟨l2, _, h⟩ := h
          split at h
          · unfold processEnergyAngleTally at h
            simp only [ex_bind_ok, ex_pure, Except.ok.injEq] at h
            obtain ⟨_, _, rfl⟩ := h; rfl
          · simp only [ex_pure, Except.ok.injEq] at h
            rw [h]
        · split at h
          · exact surfTimes_surfaces h
          · split at h
            · simp only [ex_bind_ok, ex_pure, Except.ok.injEq] at h
              obtain ⟨_, _, rfl⟩ := h; rfl
            · simp only [ex_bind_ok, ex_pure, Except.ok.injEq] at h
              obtain ⟨_, _, _, _, _, _, _, _, rfl⟩ := h; rfl
    · intro n1 n2 n3
      rwa [if_neg (by rwa [hasSub_iff]), if_neg (by rwa [hasSub_iff]), if_pos (hasSub_iff.2 n3)] at h
  split at h
  · simp only [ex_bind_ok, ex_pure, Except.ok.injEq] at h
    obtain ⟨_, _, _, _, t1, e1, h⟩ := h
    exact key t1 (by rw [← e1]) h
  · simp only [ex_bind_ok, ex_pure, Except.ok.injEq] at h
    obtain ⟨t1, e1, h⟩ := h
    exact key t1 (by rw [← e1]) h

/-- If all surface lines name the same surface, the order of the set is irrelevant and that surface is the one listed. -/
theorem C138_single_partial [LinearOrder F] (flt : Str → Option F) (minusOne : F) {enum : List Str → List Str} (henum : ∀ l, (enum l).Perm l)
    {t : Tally F} (ht : t.tallyType = '1') {lines : List Str} {s : Str} (hs : ∃ l ∈ lines.drop 2, p!"surface" <:+: l)
    (hall : ∀ l ∈ lines.drop 2, p!"surface" <:+: l → (splitWs l).getLast? = some s) :
    readTypeSurface flt minusOne enum t lines = readTypeSurface flt minusOne id t lines ∧
    ∀ t', readTypeSurface flt minusOne enum t lines = .ok t' → t'.surfaces = [s] := by
  have hd : (getType1SurfaceNumbers lines).dedup = [s] := by
    have h1 : ∀ x ∈ getType1SurfaceNumbers lines, x = s := by
      intro x hx
      unfold getType1SurfaceNumbers at hx
      obtain ⟨l, hl, rfl⟩ := List.mem_map.1 hx
      obtain ⟨hl1, hl2⟩ := List.mem_filter.1 hl
      rw [splitWs_strip, List.getLastD_eq_getLast?, hall l hl1 (hasSub_iff.1 hl2)]
      rfl
    have h2 : getType1SurfaceNumbers lines ≠ [] := by
      obtain ⟨l, hl, hsub⟩ := hs
      unfold getType1SurfaceNumbers
      intro h0
      have := List.map_eq_nil_iff.1 h0
      have hm : l ∈ (lines.drop 2).filter (hasSub p!"surface") := List.mem_filter.2 ⟨hl, hasSub_iff.2 hsub⟩
      rw [this] at hm
      cases hm
    have h4 : (getType1SurfaceNumbers lines).dedup = List.replicate (getType1SurfaceNumbers lines).dedup.length s :=
      List.eq_replicate_of_mem (fun x hx => h1 x (List.mem_dedup.1 hx))
    have h5 := List.nodup_dedup (getType1SurfaceNumbers lines)
    rw [h4, List.nodup_replicate] at h5
    have h6 : (getType1SurfaceNumbers lines).dedup ≠ [] := by
      intro h0
      obtain ⟨x, hx⟩ := List.exists_mem_of_ne_nil _ h2
      have := List.mem_dedup.2 hx
      rw [h0] at this
      cases this
    have h7 := List.length_pos_iff.2 h6
    rw [h4, show (getType1SurfaceNumbers lines).dedup.length = 1 by omega]
    rfl
  have he : enum [s] = [s] := List.perm_singleton.1 (henum [s])
  constructor
  · unfold readTypeSurface
    rw [hd, he]
    rfl
  · intro t' h
    obtain ⟨t2, h1, h2, _⟩ := surface_inv h
    rw [h2, h1 ht, hd, he]

/-- One surface named in two lines. -/
example : (readTypeSurface pyNat 0 id (⟨1, '1', [], .inr 0, .items [], .items [], none, none, none, none, [], [], [], [], none, none, none, none, none, []⟩ : Tally Nat) [p!"a", p!"b", p!" surface  7", p!" 10 2", p!" surface  7"]).map
    (fun t => (t.surfaces, t.result)) = .ok ([p!"7"], .items [.num 10]) := by decide +kernel

/-! ### C198: energy and time bins on several surfaces -/

/-- The part of one surface: its line, its blocks and further lines. -/
structure EtSection (F : Type) where
  head : Str
  blocks : List (EtBlock F)
  gap : List Str

def EtSection.lines (s : EtSection F) : List Str := s.head :: (s.blocks.flatMap EtBlock.lines ++ s.gap)

def EtSection.WF (flt : Str → Option F) (k : Nat) (s : EtSection F) : Prop :=
  p!" surface " <+: s.head ∧ s.blocks ≠ [] ∧ (∀ b ∈ s.blocks, ∃ n, b.WF flt k n) ∧ (∀ l ∈ s.gap, ¬ p!"time:" <+: strip l) ∧ s.gap ≠ [] ∧
    ∀ l ∈ s.blocks.flatMap EtBlock.lines ++ s.gap, ¬ p!" surface " <+: l

/-- Two lists of matrices that belong to the sections one by one. -/
def EtSections [LinearOrder F] (k : Nat) (secs : List (EtSection F)) (rs us : List (Item F)) : Prop :=
  rs.length = secs.length ∧ us.length = secs.length ∧ ∀ (i : Nat) s, secs[i]? = some s →
    ∃ ts es V U, EtData k s.blocks ts es V U ∧ rs[i]? = some (.mat V) ∧ us[i]? = some (.mat U)

private theorem sliceI_nat (l : List Str) (a b : Nat) (ha : a ≤ l.length) (hb : b ≤ l.length) : sliceI l a b = slice l a b := by
  unfold sliceI clamp
  rw [if_pos (by omega), if_pos (by omega)]
  simp only [Int.toNat_natCast]
  rw [Nat.min_eq_left ha, Nat.min_eq_left hb]

private theorem sliceI_minus (l : List Str) (a : Nat) (ha : a ≤ l.length) : sliceI l a (-1) = slice l a (l.length - 1) := by
  unfold sliceI clamp
  rw [if_pos (by omega), if_neg (by omega)]
  simp only [Int.toNat_natCast]
  rw [Nat.min_eq_left ha, show (-(-1 : Int)).toNat = 1 from rfl]
  by_cases h : l.length = 0
  · simp [h]
  · rw [Nat.min_eq_left (by omega)]

private theorem etLoop [LinearOrder F] {flt : Str → Option F} {k : Nat} (hk : 0 < k) {secs : List (EtSection F)}
    (h : ∀ s ∈ secs, s.WF flt k) (hne : secs ≠ []) (pre : List Str) (lab : Option (List F × List F)) (rs us : List (Item F)) :
    ∃ rs' us' lab' s, secs.getLast? = some s ∧ surfEtLoop flt (pre ++ secs.flatMap EtSection.lines) secs.length pre.length lab rs us =
      .ok (some lab', rs ++ rs', us ++ us') ∧ EtSections k secs rs' us' ∧
      SortedOnce (s.blocks.flatMap (·.times)) lab'.1 ∧ SortedOnce (s.blocks.flatMap (fun b => b.rows.map (·.energy))) lab'.2 := by
  induction secs generalizing pre lab rs us with
  | nil => exact absurd rfl hne
  | cons s secs ih =>
    obtain ⟨w1, w2, w3, w4, w5, w6⟩ := h s (by simp)
    have hlen : pre.length + 1 ≤ (pre ++ (s :: secs).flatMap EtSection.lines).length := by
      simp [EtSection.lines]
    have hrest : sliceI (pre ++ (s :: secs).flatMap EtSection.lines) ((pre.length : Int) + 1) ((pre ++ (s :: secs).flatMap EtSection.lines).length : Nat) =
        s.blocks.flatMap EtBlock.lines ++ s.gap ++ secs.flatMap EtSection.lines := by
      rw [show ((pre.length : Int) + 1) = ((pre.length + 1 : Nat) : Int) by simp, sliceI_nat _ _ _ hlen (le_refl _)]
      unfold slice
      rw [List.take_length, List.flatMap_cons]
      simp only [EtSection.lines, List.cons_append]
      exact drop_append pre s.head _ 0
    cases secs with
    | nil =>
      have hfind : findLine p!" surface " (s.blocks.flatMap EtBlock.lines ++ s.gap ++ ([] : List (EtSection F)).flatMap EtSection.lines) 9 =
          .error .ValueError := by
        rw [findLine_none (k := 9) rfl]
        exact ⟨rfl, by simpa using w6⟩
      obtain ⟨g0, x, hgx⟩ : ∃ g0 x, s.gap = g0 ++ [x] := by
        rcases List.eq_nil_or_concat s.gap with h0 | ⟨g, x, h0⟩
        · exact absurd h0 w5
        · exact ⟨g, x, by rw [h0, List.concat_eq_append]⟩
      obtain ⟨r, hr, hdata⟩ := etData_of hk w2 w3 (gap := g0) (fun l hl => w4 l (by rw [hgx]; simp [hl]))
      have hsl : sliceI (pre ++ [s].flatMap EtSection.lines) ((pre.length : Int) + 1) (-1) = s.blocks.flatMap EtBlock.lines ++ g0 := by
        rw [show ((pre.length : Int) + 1) = ((pre.length + 1 : Nat) : Int) by simp, sliceI_minus _ _ hlen]
        rw [List.flatMap_singleton]
        unfold EtSection.lines
        rw [hgx]
        have := slice_append pre s.head (s.blocks.flatMap EtBlock.lines ++ (g0 ++ [x])) 0 (s.blocks.flatMap EtBlock.lines ++ g0).length
        rw [show (pre ++ s.head :: (s.blocks.flatMap EtBlock.lines ++ (g0 ++ [x]))).length - 1 =
          pre.length + 1 + (s.blocks.flatMap EtBlock.lines ++ g0).length by simp only [List.length_append, List.length_cons, List.length_nil]; omega]
        refine this.trans ?_
        rw [← List.append_assoc]
        unfold slice
        rw [List.drop_zero, List.take_append_of_le_length (le_refl _), List.take_length]
      refine ⟨[.mat r.2.2.1], [.mat r.2.2.2], (r.1, r.2.1), s, rfl, ?_, ⟨rfl, rfl, ?_⟩, hdata.1, hdata.2.1⟩
      · rw [List.length_cons, surfEtLoop, hrest, hfind]
        simp only
        rw [hsl, hr]
        rfl
      · intro i s' hs'
        cases i with
        | zero =>
          simp only [List.getElem?_cons_zero, Option.some.injEq] at hs'
          subst hs'
          exact ⟨r.1, r.2.1, r.2.2.1, r.2.2.2, hdata, rfl, rfl⟩
        | succ i => simp at hs'
    | cons s2 secs =>
      have hw2 := (h s2 (by simp)).1
      have hfind : findLine p!" surface " (s.blocks.flatMap EtBlock.lines ++ s.gap ++ (s2 :: secs).flatMap EtSection.lines) 9 =
          .ok (s.blocks.flatMap EtBlock.lines ++ s.gap).length := by
        rw [List.flatMap_cons]
        unfold EtSection.lines
        rw [List.cons_append]
        exact find_append rfl w6 hw2
      obtain ⟨r, hr, hdata⟩ := etData_of hk w2 w3 w4
      have hfin : (((s.blocks.flatMap EtBlock.lines ++ s.gap).length : Nat) : Int) + pre.length + 1 = (((pre ++ s.lines).length : Nat) : Int) := by
        unfold EtSection.lines
        simp only [List.length_append, List.length_cons]
        push_cast
        omega
      have hsl : sliceI (pre ++ (s :: s2 :: secs).flatMap EtSection.lines) ((pre.length : Int) + 1) ((pre ++ s.lines).length : Nat) =
          s.blocks.flatMap EtBlock.lines ++ s.gap := by
        rw [show ((pre.length : Int) + 1) = ((pre.length + 1 : Nat) : Int) by simp, sliceI_nat _ _ _ hlen (by
          rw [List.flatMap_cons]; simp only [List.length_append]; omega)]
        rw [List.flatMap_cons]
        unfold EtSection.lines
        rw [List.cons_append]
        have := slice_append pre s.head (s.blocks.flatMap EtBlock.lines ++ s.gap ++ (s2 :: secs).flatMap EtSection.lines) 0
          (s.blocks.flatMap EtBlock.lines ++ s.gap).length
        rw [show (pre ++ s.head :: (s.blocks.flatMap EtBlock.lines ++ s.gap)).length =
          pre.length + 1 + (s.blocks.flatMap EtBlock.lines ++ s.gap).length by simp only [List.length_append, List.length_cons]; omega]
        refine this.trans ?_
        unfold slice
        rw [List.drop_zero, List.take_append_of_le_length (le_refl _), List.take_length]
      obtain ⟨rs', us', lab', sl, hl, hrun, hsec, hlab⟩ := ih (fun s hs => h s (by simp [hs])) (by simp) (pre ++ s.lines) (some (r.1, r.2.1))
        (rs ++ [.mat r.2.2.1]) (us ++ [.mat r.2.2.2])
      refine ⟨.mat r.2.2.1 :: rs', .mat r.2.2.2 :: us', lab', sl, by simpa using hl, ?_, ⟨by simp [hsec.1], by simp [hsec.2.1], ?_⟩, hlab⟩
      · rw [List.length_cons, surfEtLoop, hrest, hfind]
        simp only
        rw [hfin, hsl, hr, ex_ok_bind]
        rw [List.append_assoc, ← List.flatMap_cons] at hrun
        rw [hrun]
        simp
      · intro i s' hs'
        cases i with
        | zero =>
          simp only [List.getElem?_cons_zero, Option.some.injEq] at hs'
          subst hs'
          exact ⟨r.1, r.2.1, r.2.2.1, r.2.2.2, hdata, rfl, rfl⟩
        | succ i =>
          rw [List.getElem?_cons_succ] at hs'
          obtain ⟨ts, es, V, U, a, b, c⟩ := hsec.2.2 i s' hs'
          exact ⟨ts, es, V, U, a, by simpa using b, by simpa using c⟩

/-- With as many surfaces as parts, and more than one, entry `i` of results and errors is the matrix of part `i`; the labels are those of
    the last part. -/
theorem C198_surfaces [LinearOrder F] {flt : Str → Option F} {minusOne : F} {enum : List Str → List Str} {t t' : Tally F} {k : Nat}
    (hk : 0 < k) {secs : List (EtSection F)} (h : ∀ s ∈ secs, s.WF flt k) {pre post : List Str} {fin : Str}
    (hp : ∀ l ∈ pre, ¬ p!" surface " <+: l) (he : ∀ l ∈ pre ++ secs.flatMap EtSection.lines, ¬ p!" ===" <+: l) (hf : p!" ===" <+: fin)
    (hfirst : ∀ s b, secs.head? = some s → s.blocks.head? = some b → ¬ p!"energy" <:+: b.timeLine ∧ ¬ p!"angle" <:+: b.timeLine)
    (hr : readTypeSurface flt minusOne enum t (pre ++ secs.flatMap EtSection.lines ++ fin :: post) = .ok t')
    (hn : t'.surfaces.length = secs.length) (h2 : 2 ≤ secs.length) :
    ∃ rs us ts es s, t'.result = .items rs ∧ t'.err = .items us ∧ EtSections k secs rs us ∧ secs.getLast? = some s ∧
      t'.times = some (.nums ts) ∧ t'.eng = some es ∧ SortedOnce (s.blocks.flatMap (·.times)) ts ∧
      SortedOnce (s.blocks.flatMap (fun b => b.rows.map (·.energy))) es := by
  obtain ⟨t2, _, hs, first, l1, hfirst', hl1, htimes⟩ := surface_inv hr
  obtain ⟨s, secs', rfl⟩ := List.exists_cons_of_ne_nil (show secs ≠ [] by rintro rfl; simp at h2)
  obtain ⟨w1, w2, w3, w4, w5, w6⟩ := h s (by simp)
  obtain ⟨b, bs, hb⟩ := List.exists_cons_of_ne_nil w2
  obtain ⟨n, hw⟩ := w3 b (by simp [hb])
  have hlines : pre ++ (s :: secs').flatMap EtSection.lines ++ fin :: post =
      pre ++ s.head :: (b.timeLine :: b.heading :: (b.rows.map (·.line) ++ [b.closing] ++ bs.flatMap EtBlock.lines ++ s.gap ++
        secs'.flatMap EtSection.lines ++ fin :: post)) := by
    simp [EtSection.lines, EtBlock.lines, hb]
  have hfi : first = pre.length := by
    rw [hlines, find_append (k := 9) rfl hp w1] at hfirst'
    simpa using hfirst'.symm
  subst hfi
  have hl1' : l1 = b.timeLine := by
    rw [hlines, show pre.length + 1 = pre.length + 1 + 0 from rfl, at_append] at hl1
    simpa [at', orErr] using hl1.symm
  subst hl1'
  obtain ⟨n1, n2⟩ := hfirst s b rfl (by rw [hb]; rfl)
  have htime : p!"time" <:+: b.timeLine := by
    refine List.IsInfix.trans ?_ (strip_infix hw.1.1)
    exact ⟨[], p!":", rfl⟩
  have ht := htimes n1 n2 htime
  obtain ⟨rs', us', lab', sl, hl, hrun, hsec, hlab⟩ := etLoop hk h (by simp) pre none [] []
  have hat : at' (pre ++ (s :: secs').flatMap EtSection.lines) (pre.length + 2) = .ok b.heading := by
    have : pre ++ (s :: secs').flatMap EtSection.lines =
      pre ++ s.head :: (b.timeLine :: b.heading :: (b.rows.map (·.line) ++ [b.closing] ++ bs.flatMap EtBlock.lines ++ s.gap ++
        secs'.flatMap EtSection.lines)) := by
      simp [EtSection.lines, EtBlock.lines, hb]
    rw [this, show pre.length + 2 = pre.length + 1 + 1 from rfl, at_append]
    rfl
  unfold surfTimes at ht
  rw [find_append (k := 4) rfl he hf, ex_ok_bind, List.take_append_of_le_length (le_refl _), List.take_length] at ht
  simp only [hat, ex_ok_bind] at ht
  rw [if_pos (hasSub_iff.2 (strip_infix hw.2.1)), if_pos (by rw [← hs, hn]; exact h2)] at ht
  have hn2 : t2.surfaces.length = (s :: secs').length := by rw [← hs, hn]
  rw [hn2, hrun] at ht
  simp only [ex_ok_bind, orErr, ex_pure, Except.ok.injEq, List.nil_append] at ht
  subst ht
  exact ⟨rs', us', lab'.1, lab'.2, sl, rfl, rfl, hsec, hl, rfl, rfl, hlab.1, hlab.2⟩

/-- One surface: the matrices of its blocks. -/
theorem C198_single [LinearOrder F] {flt : Str → Option F} {minusOne : F} {enum : List Str → List Str} {t t' : Tally F} {k : Nat}
    (hk : 0 < k) {b : EtBlock F} {bs : List (EtBlock F)} (h : ∀ c ∈ b :: bs, ∃ n, c.WF flt k n) {pre gap post : List Str} {head fin : Str}
    (hg : ∀ l ∈ gap, ¬ p!"time:" <+: strip l) (hp : ∀ l ∈ pre, ¬ p!" surface " <+: l) (hh : p!" surface " <+: head)
    (he : ∀ l ∈ pre ++ head :: ((b :: bs).flatMap EtBlock.lines ++ gap), ¬ p!" ===" <+: l) (hf : p!" ===" <+: fin)
    (n1 : ¬ p!"energy" <:+: b.timeLine) (n2 : ¬ p!"angle" <:+: b.timeLine)
    (hr : readTypeSurface flt minusOne enum t (pre ++ head :: ((b :: bs).flatMap EtBlock.lines ++ gap) ++ fin :: post) = .ok t')
    (hn : t'.surfaces.length ≤ 1) :
    ∃ ts es V U, t'.times = some (.nums ts) ∧ t'.eng = some es ∧ t'.result = .mat V ∧ t'.err = .mat U ∧ EtData k (b :: bs) ts es V U := by
  obtain ⟨r, hrun, hdata⟩ := etData_of hk (by simp) h hg
  obtain ⟨t2, _, hs, first, l1, hfirst', hl1, htimes⟩ := surface_inv hr
  obtain ⟨n, hw⟩ := h b (by simp)
  have hlines : ∀ tl : List Str, pre ++ head :: ((b :: bs).flatMap EtBlock.lines ++ gap) ++ tl =
      pre ++ head :: (b.timeLine :: b.heading :: (b.rows.map (·.line) ++ [b.closing] ++ bs.flatMap EtBlock.lines ++ gap ++ tl)) := by
    intro tl
    simp [EtBlock.lines]
  have hfi : first = pre.length := by
    rw [hlines, find_append (k := 9) rfl hp hh] at hfirst'
    simpa using hfirst'.symm
  subst hfi
  have hl1' : l1 = b.timeLine := by
    rw [hlines, show pre.length + 1 = pre.length + 1 + 0 from rfl, at_append] at hl1
    simpa [at', orErr] using hl1.symm
  subst hl1'
  have htime : p!"time" <:+: b.timeLine := by
    refine List.IsInfix.trans ?_ (strip_infix hw.1.1)
    exact ⟨[], p!":", rfl⟩
  have ht := htimes n1 n2 htime
  have hat : at' (pre ++ head :: ((b :: bs).flatMap EtBlock.lines ++ gap)) (pre.length + 2) = .ok b.heading := by
    have := hlines []
    rw [List.append_nil] at this
    rw [this, show pre.length + 2 = pre.length + 1 + 1 from rfl, at_append]
    rfl
  have hsl : slice (pre ++ head :: ((b :: bs).flatMap EtBlock.lines ++ gap)) (pre.length + 1)
      (pre ++ head :: ((b :: bs).flatMap EtBlock.lines ++ gap)).length = (b :: bs).flatMap EtBlock.lines ++ gap := by
    unfold slice
    rw [List.take_length]
    exact drop_append pre head _ 0
  unfold surfTimes at ht
  rw [find_append (k := 4) rfl he hf, ex_ok_bind, List.take_append_of_le_length (le_refl _), List.take_length] at ht
  simp only [hat, ex_ok_bind] at ht
  rw [if_pos (hasSub_iff.2 (strip_infix hw.2.1)), if_neg (by rw [← hs]; omega), hsl, hrun] at ht
  simp only [ex_ok_bind, ex_pure, Except.ok.injEq] at ht
  subst ht
  exact ⟨_, _, _, _, rfl, rfl, rfl, rfl, hdata⟩

/-- Two surfaces with two energies and times each. -/
example : (readTypeSurface pyNat 0 id (⟨2, '2', [], .inr 0, .items [], .items [], none, none, none, none, [], [], [], [], none, none, none, none, none, []⟩ : Tally Nat) [p!"           areas", p!" surface:  1   2", p!"  3 4", p!"", p!" surface  1", p!" time:  7 8",
    p!" energy ", p!" 1 10 2 11 3", p!" 3 30 4 31 5", p!" total 1 1 1 1", p!"", p!" surface  2", p!" time:  7 8", p!" energy ", p!" 1 50 2 51 3",
    p!" 3 60 4 61 5", p!" total 1 1 1 1", p!"", p!" ==="]).map (fun t => (t.times, t.eng, t.result)) =
    .ok (some (.nums [7, 8]), some [1, 3], .items [.mat [[10, 11], [30, 31]], .mat [[50, 51], [60, 61]]]) := by decide +kernel
/-- One surface. -/
example : (readTypeSurface pyNat 0 id (⟨2, '2', [], .inr 0, .items [], .items [], none, none, none, none, [], [], [], [], none, none, none, none, none, []⟩ : Tally Nat) [p!"           areas", p!" surface:  1", p!"  3", p!"", p!" surface  1", p!" time:  7 8",
    p!" energy ", p!" 1 10 2 11 3", p!" 3 30 4 31 5", p!" total 1 1 1 1", p!"", p!" ==="]).map (fun t => (t.times, t.eng, t.result)) =
    .ok (some (.nums [7, 8]), some [1, 3], .mat [[10, 11], [30, 31]]) := by decide +kernel

/-! ### C196: time bins on surfaces -/

/-- The part of one surface: its line, the lines up to the one with "total", that line, its values and one further line. -/
structure TimeSection (F : Type) where
  head : Str
  body : List Str
  tot : Str
  val : Str
  gap : Str
  times : List Str
  pairs : List (F × F)

def TimeSection.lines (s : TimeSection F) : List Str := s.head :: (s.body ++ [s.tot, s.val] ++ [s.gap])

def TimeSection.WF (flt : Str → Option F) (s : TimeSection F) : Prop :=
  ¬ p!"total" <:+: s.head ∧ (∀ l ∈ s.body, ¬ p!"total" <:+: l) ∧ p!"total" <:+: s.tot ∧ TimeBlock flt (s.body ++ [s.tot, s.val]) s.times s.pairs

private theorem timeLoop {flt : Str → Option F} {secs : List (TimeSection F)} (h : ∀ s ∈ secs, s.WF flt) (pre post : List Str) (ts : List Str)
    (rs us : List (Item F)) :
    surfTimeLoop flt (pre ++ secs.flatMap TimeSection.lines ++ post) secs.length pre.length ts rs us =
      .ok ((secs.getLast?.map (·.times)).getD ts, rs ++ secs.map (fun s => .list (s.pairs.map (·.1))),
        us ++ secs.map (fun s => .list (s.pairs.map (·.2)))) := by
  induction secs generalizing pre ts rs us with
  | nil => simp [surfTimeLoop]
  | cons s secs ih =>
    obtain ⟨w1, w2, w3, w4⟩ := h s (by simp)
    have hl : pre ++ (s :: secs).flatMap TimeSection.lines ++ post =
        pre ++ s.head :: (s.body ++ [s.tot, s.val] ++ (s.gap :: (secs.flatMap TimeSection.lines ++ post))) := by
      simp [TimeSection.lines]
    have hfind : findInd ((pre ++ (s :: secs).flatMap TimeSection.lines ++ post).drop pre.length) p!"total" = .ok (s.body.length + 1) := by
      rw [hl, List.drop_left]
      have := ind_append (sub := p!"total") (a := s.head :: s.body) (x := s.tot)
        (b := s.val :: s.gap :: (secs.flatMap TimeSection.lines ++ post)) (by
          intro y hy
          rcases List.mem_cons.1 hy with rfl | hy
          · exact w1
          · exact w2 y hy) w3
      simpa using this
    have hsl : slice (pre ++ (s :: secs).flatMap TimeSection.lines ++ post) (pre.length + 1) (s.body.length + 1 + 2 + pre.length) =
        s.body ++ [s.tot, s.val] := by
      rw [hl, show s.body.length + 1 + 2 + pre.length = pre.length + 1 + (s.body ++ [s.tot, s.val]).length by
        simp only [List.length_append, List.length_cons, List.length_nil]; omega]
      refine (slice_append pre s.head _ 0 _).trans ?_
      unfold slice
      rw [List.drop_zero, List.take_append_of_le_length (le_refl _), List.take_length]
    have hlen : s.body.length + 1 + 2 + pre.length + 1 = (pre ++ s.lines).length := by
      simp only [TimeSection.lines, List.length_append, List.length_cons, List.length_nil]; omega
    rw [List.length_cons, surfTimeLoop, hfind, ex_ok_bind]
    simp only
    rw [hsl, C97_pairs w4, ex_ok_bind, hlen]
    have := ih (fun s hs => h s (by simp [hs])) (pre ++ s.lines) s.times (rs ++ [.list (s.pairs.map (·.1))]) (us ++ [.list (s.pairs.map (·.2))])
    rw [List.append_assoc pre, ← List.flatMap_cons] at this
    simp only
    rw [this]
    cases secs with
    | nil => simp
    | cons s2 secs => simp [List.getLast?_cons_cons, List.getLast?_eq_some_getLast]

/-- With as many surfaces as parts, and more than one, entry `i` of results and errors holds the numbers of part `i` in their order; the
    times are those of the last part. -/
theorem C196_surfaces [LinearOrder F] {flt : Str → Option F} {minusOne : F} {enum : List Str → List Str} {t t' : Tally F}
    {secs : List (TimeSection F)} (h : ∀ s ∈ secs, s.WF flt) {pre gap post : List Str} {fin l1 l2 : Str}
    (hp : ∀ l ∈ pre, ¬ p!" surface " <+: l) (hh : ∀ s, secs.head? = some s → p!" surface " <+: s.head)
    (he : ∀ l ∈ pre ++ secs.flatMap TimeSection.lines ++ gap, ¬ p!" ===" <+: l) (hf : p!" ===" <+: fin)
    (hl1 : ∃ r s, secs.head? = some s ∧ s.body ++ [s.tot, s.val] = l1 :: l2 :: r)
    (n1 : ¬ p!"energy" <:+: l1) (n2 : ¬ p!"angle" <:+: l1) (n3 : p!"time" <:+: l1) (n4 : ¬ p!"energy" <:+: l2)
    (hr : readTypeSurface flt minusOne enum t (pre ++ secs.flatMap TimeSection.lines ++ gap ++ fin :: post) = .ok t')
    (hn : t'.surfaces.length = secs.length) (h2 : 2 ≤ secs.length) :
    t'.result = .items (secs.map (fun s => .list (s.pairs.map (·.1)))) ∧ t'.err = .items (secs.map (fun s => .list (s.pairs.map (·.2)))) ∧
      t'.times = secs.getLast?.map (fun s => .strs s.times) := by
  obtain ⟨t2, _, hs, first, l1', hfirst', hl1', htimes⟩ := surface_inv hr
  obtain ⟨r, s, hs1, hbody⟩ := hl1
  obtain ⟨s0, secs', rfl⟩ := List.exists_cons_of_ne_nil (show secs ≠ [] by rintro rfl; simp at h2)
  simp only [List.head?_cons, Option.some.injEq] at hs1
  subst hs1
  have hlines : ∀ tl : List Str, pre ++ (s0 :: secs').flatMap TimeSection.lines ++ gap ++ tl =
      pre ++ s0.head :: (l1 :: l2 :: (r ++ [s0.gap] ++ secs'.flatMap TimeSection.lines ++ gap ++ tl)) := by
    intro tl
    rw [List.flatMap_cons]
    unfold TimeSection.lines
    rw [hbody]
    simp
  have hfi : first = pre.length := by
    rw [hlines, find_append (k := 9) rfl hp (hh s0 rfl)] at hfirst'
    simpa using hfirst'.symm
  subst hfi
  have hl1e : l1' = l1 := by
    rw [hlines, show pre.length + 1 = pre.length + 1 + 0 from rfl, at_append] at hl1'
    simpa [at', orErr] using hl1'.symm
  subst hl1e
  have ht := htimes n1 n2 n3
  have hat : at' (pre ++ (s0 :: secs').flatMap TimeSection.lines ++ gap) (pre.length + 2) = .ok l2 := by
    have := hlines []
    rw [List.append_nil] at this
    rw [this, show pre.length + 2 = pre.length + 1 + 1 from rfl, at_append]
    rfl
  have hn2 : t2.surfaces.length = (s0 :: secs').length := by rw [← hs, hn]
  unfold surfTimes at ht
  rw [find_append (k := 4) rfl he hf, ex_ok_bind, List.take_append_of_le_length (le_refl _), List.take_length] at ht
  simp only [hat, ex_ok_bind] at ht
  rw [if_neg (by rw [hasSub_iff]; exact n4), if_pos (by rw [hn2]; exact h2), hn2, timeLoop h] at ht
  simp only [ex_ok_bind, ex_pure, Except.ok.injEq, List.nil_append] at ht
  subst ht
  refine ⟨rfl, rfl, ?_⟩
  simp [List.getLast?_eq_some_getLast]

/-- One surface: the numbers of its part in their order. -/
theorem C196_single [LinearOrder F] {flt : Str → Option F} {minusOne : F} {enum : List Str → List Str} {t t' : Tally F}
    {s : TimeSection F} (h : s.WF flt) {pre gap post : List Str} {fin l1 l2 : Str}
    (hp : ∀ l ∈ pre, ¬ p!" surface " <+: l ∧ ¬ p!"total" <:+: l) (hh : p!" surface " <+: s.head)
    (he : ∀ l ∈ pre ++ s.lines ++ gap, ¬ p!" ===" <+: l) (hf : p!" ===" <+: fin)
    (hl1 : ∃ r, s.body ++ [s.tot, s.val] = l1 :: l2 :: r)
    (n1 : ¬ p!"energy" <:+: l1) (n2 : ¬ p!"angle" <:+: l1) (n3 : p!"time" <:+: l1) (n4 : ¬ p!"energy" <:+: l2)
    (hr : readTypeSurface flt minusOne enum t (pre ++ s.lines ++ gap ++ fin :: post) = .ok t') (hn : t'.surfaces.length ≤ 1) :
    t'.result = .items (s.pairs.map (fun p => .num p.1)) ∧ t'.err = .items (s.pairs.map (fun p => .num p.2)) ∧
      t'.times = some (.strs s.times) := by
  obtain ⟨w1, w2, w3, w4⟩ := h
  obtain ⟨t2, _, hs, first, l1', hfirst', hl1', htimes⟩ := surface_inv hr
  obtain ⟨r, hbody⟩ := hl1
  have hlines : ∀ tl : List Str, pre ++ s.lines ++ gap ++ tl =
      pre ++ s.head :: (l1 :: l2 :: (r ++ [s.gap] ++ gap ++ tl)) := by
    intro tl
    unfold TimeSection.lines
    rw [hbody]
    simp
  have hfi : first = pre.length := by
    rw [hlines, find_append (k := 9) rfl (fun l hl => (hp l hl).1) hh] at hfirst'
    simpa using hfirst'.symm
  subst hfi
  have hl1e : l1' = l1 := by
    rw [hlines, show pre.length + 1 = pre.length + 1 + 0 from rfl, at_append] at hl1'
    simpa [at', orErr] using hl1'.symm
  subst hl1e
  have ht := htimes n1 n2 n3
  have hat : at' (pre ++ s.lines ++ gap) (pre.length + 2) = .ok l2 := by
    have := hlines []
    rw [List.append_nil] at this
    rw [this, show pre.length + 2 = pre.length + 1 + 1 from rfl, at_append]
    rfl
  have hl : pre ++ s.lines ++ gap = pre ++ s.head :: (s.body ++ [s.tot, s.val] ++ (s.gap :: gap)) := by
    simp [TimeSection.lines]
  have hfind : findInd (pre ++ s.lines ++ gap) p!"total" = .ok (pre.length + 1 + s.body.length) := by
    have := ind_append (sub := p!"total") (a := pre ++ s.head :: s.body) (x := s.tot) (b := s.val :: s.gap :: gap) (by
        intro y hy
        rcases List.mem_append.1 hy with hy | hy
        · exact (hp y hy).2
        · rcases List.mem_cons.1 hy with rfl | hy
          · exact w1
          · exact w2 y hy) w3
    rw [hl]
    rw [show pre ++ s.head :: (s.body ++ [s.tot, s.val] ++ (s.gap :: gap)) = pre ++ s.head :: s.body ++ s.tot :: (s.val :: s.gap :: gap) by simp,
      this]
    congr 1
    simp only [List.length_append, List.length_cons]
    omega
  have hsl : slice (pre ++ s.lines ++ gap) (pre.length + 1) (pre.length + 1 + s.body.length + 2) = s.body ++ [s.tot, s.val] := by
    rw [hl, show pre.length + 1 + s.body.length + 2 = pre.length + 1 + (s.body ++ [s.tot, s.val]).length by
      simp only [List.length_append, List.length_cons, List.length_nil]; omega]
    refine (slice_append pre s.head _ 0 _).trans ?_
    unfold slice
    rw [List.drop_zero, List.take_append_of_le_length (le_refl _), List.take_length]
  unfold surfTimes at ht
  rw [find_append (k := 4) rfl he hf, ex_ok_bind, List.take_append_of_le_length (le_refl _), List.take_length] at ht
  simp only [hat, ex_ok_bind] at ht
  rw [if_neg (by rw [hasSub_iff]; exact n4), if_neg (by rw [← hs]; omega)] at ht
  simp only [hfind, ex_ok_bind, hsl, C97_pairs w4, ex_pure, Except.ok.injEq] at ht
  subst ht
  refine ⟨?_, ?_, rfl⟩ <;> simp [List.map_map, Function.comp_def]

/-- Two surfaces with three times each, and one. -/
example : (readTypeSurface pyNat 0 id (⟨2, '2', [], .inr 0, .items [], .items [], none, none, none, none, [], [], [], [], none, none, none, none, none, []⟩ : Tally Nat) [p!"           areas", p!" surface:  1   2", p!"  3 4", p!"", p!" surface  1", p!" time:  7 8",
    p!" 10 2 11 3", p!" time: total", p!" 121 131", p!"", p!" surface  2", p!" time:  7 8", p!" 20 2 21 3", p!" time: total", p!" 221 231",
    p!"", p!" ==="]).map (fun t => (t.times, t.result, t.err)) =
    .ok (some (.strs [p!"7", p!"8", p!"total"]), .items [.list [10, 11, 121], .list [20, 21, 221]], .items [.list [2, 3, 131], .list [2, 3, 231]]) := by
  decide +kernel
example : (readTypeSurface pyNat 0 id (⟨2, '2', [], .inr 0, .items [], .items [], none, none, none, none, [], [], [], [], none, none, none, none, none, []⟩ : Tally Nat) [p!"           areas", p!" surface:  1", p!"  3", p!"", p!" surface  1", p!" time:  7 8",
    p!" 10 2 11 3", p!" time: total", p!" 121 131", p!"", p!" ==="]).map (fun t => (t.times, t.result, t.err)) =
    .ok (some (.strs [p!"7", p!"8", p!"total"]), .items [.num 10, .num 11, .num 121], .items [.num 2, .num 3, .num 131]) := by
  decide +kernel

/-! ### C197: time bins of cells -/

/-- The part of one cell: other lines, its line, the lines up to the one with "total", that line and its values. -/
structure CellTimes (F : Type) where
  before : List Str
  head : Str
  body : List Str
  tot : Str
  val : Str
  times : List Str
  pairs : List (F × F)

def CellTimes.lines (s : CellTimes F) : List Str := s.before ++ s.head :: (s.body ++ [s.tot, s.val])

/-- The number of the cell stands between blanks in its line and not before it, "total" only in its line; a line about times follows. -/
def CellTimes.WF (flt : Str → Option F) (cell : Str) (s : CellTimes F) : Prop :=
  (∀ l ∈ s.before, ¬ p!" " ++ cell ++ p!" " <:+: l ∧ ¬ p!"total" <:+: l) ∧ p!" " ++ cell ++ p!" " <:+: s.head ∧ ¬ p!"total" <:+: s.head ∧
  (∀ l ∈ s.body, ¬ p!"total" <:+: l) ∧ p!"total" <:+: s.tot ∧ TimeBlock flt (s.body ++ [s.tot, s.val]) s.times s.pairs ∧
  ∃ l1 l2 r, s.body ++ [s.tot, s.val] = l1 :: l2 :: r ∧ p!"time" <:+: l1 ∧ ¬ p!"energy" <:+: l1 ∧ ¬ p!"energy" <:+: l2

private theorem cellTimes_find {flt : Str → Option F} {cell : Str} {s : CellTimes F} (h : s.WF flt cell) (rest : List Str) :
    findInd (s.lines ++ rest) (p!" " ++ cell ++ p!" ") = .ok s.before.length ∧
    ∃ l1 l2, at' (s.lines ++ rest) (s.before.length + 1) = .ok l1 ∧ at' (s.lines ++ rest) (s.before.length + 2) = .ok l2 ∧
      p!"time" <:+: l1 ∧ ¬ p!"energy" <:+: l1 ∧ ¬ p!"energy" <:+: l2 := by
  obtain ⟨w1, w2, w3, w4, w5, w6, l1, l2, r, hb, n1, n2, n3⟩ := h
  have hl : s.lines ++ rest = s.before ++ s.head :: (l1 :: l2 :: (r ++ rest)) := by
    unfold CellTimes.lines
    rw [hb]
    simp
  rw [hl]
  refine ⟨ind_append (fun y hy => (w1 y hy).1) w2, l1, l2, ?_, ?_, n1, n2, n3⟩
  · rw [show s.before.length + 1 = s.before.length + 1 + 0 from rfl, at_append]; rfl
  · rw [show s.before.length + 2 = s.before.length + 1 + 1 from rfl, at_append]; rfl

private theorem cellTimes_step [LinearOrder F] {flt : Str → Option F} {b : Bool} {cell : Str} {s : CellTimes F} (h : s.WF flt cell)
    {rest : List Str} {e : Nat} (he : findLine p!" ===" (s.lines ++ rest) 4 = .ok e) {t : Tally F} {xs ys : List (Item F)}
    (hx : t.result = .items xs) (hy : t.err = .items ys) :
    cellTallyStep flt b (s.lines ++ rest, t) cell = .ok (rest,
      { t with times := some (.strs s.times), result := .items (xs ++ [.list (s.pairs.map (·.1))]), err := .items (ys ++ [.list (s.pairs.map (·.2))]) }) := by
  obtain ⟨h1, l1, l2, h2, h3, n1, n2, n3⟩ := cellTimes_find h rest
  obtain ⟨w1, w2, w3, w4, w5, w6, _⟩ := h
  have hfind : findInd (s.lines ++ rest) p!"total" = .ok (s.before.length + 1 + s.body.length) := by
    have := ind_append (sub := p!"total") (a := s.before ++ s.head :: s.body) (x := s.tot) (b := s.val :: rest) (by
        intro y hy
        rcases List.mem_append.1 hy with hy | hy
        · exact (w1 y hy).2
        · rcases List.mem_cons.1 hy with rfl | hy
          · exact w3
          · exact w4 y hy) w5
    rw [show s.lines ++ rest = s.before ++ s.head :: s.body ++ s.tot :: (s.val :: rest) by simp [CellTimes.lines], this]
    congr 1
    simp only [List.length_append, List.length_cons]
    omega
  have hl : s.lines ++ rest = s.before ++ s.head :: (s.body ++ [s.tot, s.val] ++ rest) := by
    simp [CellTimes.lines]
  have hlen : s.before.length + 1 + s.body.length + 2 = s.before.length + 1 + (s.body ++ [s.tot, s.val]).length := by
    simp only [List.length_append, List.length_cons, List.length_nil]; omega
  have hsl : slice (s.lines ++ rest) (s.before.length + 1) (s.before.length + 1 + s.body.length + 2) = s.body ++ [s.tot, s.val] := by
    rw [hl, hlen]
    refine (slice_append s.before s.head _ 0 _).trans ?_
    unfold slice
    rw [List.drop_zero, List.take_append_of_le_length (le_refl _), List.take_length]
  have hdrop : (s.lines ++ rest).drop (s.before.length + 1 + s.body.length + 2) = rest := by
    rw [hl, hlen, drop_append, List.drop_left]
  unfold cellTallyStep
  simp only [h1, ex_ok_bind, h2]
  rw [if_pos (hasSub_iff.2 n1)]
  simp only [he, ex_ok_bind, h3]
  rw [if_neg (by rw [hasSub_iff]; exact n3)]
  simp only [hfind, ex_ok_bind, hsl, C97_pairs w6, hx, hy, Res.append, ex_pure, hdrop]

private theorem cellTimes_run [LinearOrder F] {flt : Str → Option F} {b : Bool} {cells : List Str} {secs : List (CellTimes F)}
    (h : List.Forall₂ (fun c s => s.WF flt c) cells secs) {tail : List Str} (htail : ∃ l ∈ tail, p!" ===" <+: l) {t : Tally F}
    {xs ys : List (Item F)} (hx : t.result = .items xs) (hy : t.err = .items ys) :
    ∃ t', cells.foldlM (cellTallyStep flt b) (secs.flatMap CellTimes.lines ++ tail, t) = .ok (tail, t') ∧
      t' = { t with
             times := (secs.getLast?.map (fun s => Labels.strs s.times)).or t.times
             result := .items (xs ++ secs.map (fun s => .list (s.pairs.map (·.1))))
             err := .items (ys ++ secs.map (fun s => .list (s.pairs.map (·.2)))) } := by
  induction h generalizing t xs ys with
  | nil => exact ⟨t, rfl, by simp [← hx, ← hy]⟩
  | @cons c s cs ss hw hrest ih =>
    have he : ∃ e, findLine p!" ===" (s.lines ++ (ss.flatMap CellTimes.lines ++ tail)) 4 = .ok e := by
      cases hf : findLine p!" ===" (s.lines ++ (ss.flatMap CellTimes.lines ++ tail)) 4 with
      | ok e => exact ⟨e, rfl⟩
      | error e =>
        rw [findLine_none (k := 4) rfl] at hf
        obtain ⟨l, hl, hp⟩ := htail
        exact absurd hp (hf.2 l (by simp [hl]))
    obtain ⟨e, he⟩ := he
    obtain ⟨t', h1, h2⟩ := ih (t := { t with times := some (.strs s.times), result := .items (xs ++ [.list (s.pairs.map (·.1))]),
                                             err := .items (ys ++ [.list (s.pairs.map (·.2))]) }) rfl rfl
    refine ⟨t', ?_, ?_⟩
    · rw [List.flatMap_cons, List.append_assoc, List.foldlM_cons, cellTimes_step hw he hx hy, ex_ok_bind, h1]
    · rw [h2]
      cases ss with
      | nil => simp
      | cons s2 ss => simp [List.getLast?_cons_cons, List.getLast?_eq_some_getLast]

/-- A cell tally with time bins: entry `i` of results and errors holds the numbers of cell `i` in their order; the times are those of the
    last cell. -/
theorem C197_cells [LinearOrder F] {flt : Str → Option F} {t : Tally F} {pre tail cells vols : List Str} {i : Nat} {secs : List (CellTimes F)}
    (hi : CellHeading t.tallyType (pre ++ (secs.flatMap CellTimes.lines ++ tail)) i)
    (hc : getCellData (pre ++ (secs.flatMap CellTimes.lines ++ tail)) i = .ok (cells, vols, pre.length)) (hne : cells ≠ [])
    (h : List.Forall₂ (fun c s => s.WF flt c) cells secs) (htail : ∃ l ∈ tail, p!" ===" <+: l)
    (hx : t.result = .items []) (hy : t.err = .items []) :
    ∃ t', readTypeCell flt t (pre ++ (secs.flatMap CellTimes.lines ++ tail)) = .ok t' ∧ t'.cells = cells ∧ t'.vols = vols ∧
      t'.times = secs.getLast?.map (fun s => Labels.strs s.times) ∧ t'.result = .items (secs.map (fun s => .list (s.pairs.map (·.1)))) ∧
      t'.err = .items (secs.map (fun s => .list (s.pairs.map (·.2)))) := by
  cases h with
  | nil => exact absurd rfl hne
  | @cons c0 s cs ss hw hrest =>
    obtain ⟨h1, l1, l2, h2, _, _, n2, _⟩ := cellTimes_find hw (ss.flatMap CellTimes.lines ++ tail)
    obtain ⟨t', hrun, ht'⟩ := cellTimes_run (b := false) (List.Forall₂.cons hw hrest) htail (t := { t with cells := c0 :: cs, vols := vols }) hx hy
    refine ⟨t', ?_, ?_⟩
    · unfold readTypeCell
      extract_lets jp
      have key : jp i = .ok t' := by
        simp only [jp]
        simp only [hc, ex_ok_bind, List.drop_left, List.getElem?_cons_zero, orErr]
        rw [List.flatMap_cons, List.append_assoc] at hrun ⊢
        simp only [h1, ex_ok_bind, h2]
        rw [if_neg (by rw [hasSub_iff]; exact n2), hrun]
        simp only [ex_ok_bind, ex_pure]
      rcases hi with ⟨ht, hi⟩ | ⟨ht, hi⟩
      · rw [if_pos ht, (findLine_prefix (show p!"           volumes ".length = 19 from rfl)).2 hi]
        exact key
      · rw [if_neg ht, (findLine_prefix (show p!"           masses ".length = 18 from rfl)).2 hi]
        exact key
    · rw [ht']
      refine ⟨rfl, rfl, ?_, by simp, by simp⟩
      simp [List.getLast?_eq_some_getLast]

/-- Two cells with three times each, for a flux and for a heating tally. -/
example : (readTypeCell pyNat (⟨4, '4', [], .inr 0, .items [], .items [], none, none, none, none, [], [], [], [], none, none, none, none, none, []⟩ : Tally Nat) [p!"           volumes ", p!"  cell:   1   2", p!"   1 1", p!" ",
    p!" cell  1 ", p!" time:  7 8", p!" 10 2 11 3", p!" time: total", p!" 121 131", p!"", p!" cell  2 ", p!" time:  7 8", p!" 20 2 21 3",
    p!" time: total", p!" 221 231", p!"", p!" ==="]).map (fun t => (t.cells, t.times, t.result, t.err)) =
    .ok ([p!"1", p!"2"], some (.strs [p!"7", p!"8", p!"total"]), .items [.list [10, 11, 121], .list [20, 21, 221]],
      .items [.list [2, 3, 131], .list [2, 3, 231]]) := by decide +kernel
example : (readTypeCell pyNat (⟨4, '6', [], .inr 0, .items [], .items [], none, none, none, none, [], [], [], [], none, none, none, none, none, []⟩ : Tally Nat) [p!"           masses ", p!"  cell:   1", p!"   1", p!" ",
    p!" cell  1 ", p!" time:  7 8", p!" 10 2 11 3", p!" time: total", p!" 121 131", p!"", p!" ==="]).map (fun t => (t.cells, t.result)) =
    .ok ([p!"1"], .items [.list [10, 11, 121]]) := by decide +kernel

end Props
