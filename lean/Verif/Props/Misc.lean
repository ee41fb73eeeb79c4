/- Properties C178-C187: mcnp_run_plot.py, fispact_input_reader.py, magic.py and some functions of other modules. -/
import Verif.Model.Misc
import Verif.Proofs.NeutUtilities
import Verif.Proofs.Except
import Verif.Proofs.MapM
import Verif.Proofs.NatStr
import Mathlib.Algebra.Order.Field.Basic
import Mathlib.Tactic.FieldSimp
import Mathlib.Tactic.Linarith
import Mathlib.Tactic.Ring
import Mathlib.Data.Rat.Cast.Order

set_option linter.unusedSectionVars false
set_option linter.unusedSimpArgs false

namespace Props
open Py NeutUtilities

/-! ### C178 -/

/-- An existing file gives its lines, and nothing is changed; a missing path, or one that is no file, raises. -/
theorem C178_read (path : Str) (fs : FS) :
    (∀ c, fs.node path = some (.file c) → FispactInput.readFispactInput path fs = (.ok (splitlines (univNL c)), fs)) ∧
    (fs.node path = none → FispactInput.readFispactInput path fs = (.error .FileNotFoundError, fs)) ∧
    (fs.node path = some .dir → FispactInput.readFispactInput path fs = (.error .ValueError, fs)) := by
  unfold FispactInput.readFispactInput
  refine ⟨fun c h => ?_, fun h => by rw [h], fun h => by rw [h]⟩
  rw [h]
  simp only [getLines_file h]

example : (FispactInput.readFispactInput p!"x" ⟨fun p => if p = p!"x" then some (.file p!"MON\nEND\n") else none, fun _ => true⟩).1 = .ok [p!"MON", p!"END"] := by
  decide +kernel

/-! ### C179 -/

/-- A FISPACT comment: text between `<<` and `>>`. -/
def FispComment (l : Str) : Prop := ∃ a b c, l = a ++ p!"<<" ++ b ++ p!">>" ++ c

/-- The three functions return None for every input, also for one with a comment, an irradiation and a cooling step. -/
theorem C179_violated : ∃ lines : List Str, (∃ l ∈ lines, FispComment l) ∧ p!"TIME 1 DAYS ATOMS" ∈ lines ∧ p!"ZERO" ∈ lines ∧
    FispactInput.getComments lines = none ∧ FispactInput.getIrradProfile lines = none ∧ FispactInput.getCoolTimes lines = none :=
  ⟨[p!"<< run >>", p!"FLUX 1.0E10", p!"TIME 1 DAYS ATOMS", p!"FLUX 0", p!"ZERO", p!"TIME 2 DAYS ATOMS"],
    ⟨p!"<< run >>", by simp, [], p!" run ", [], by decide⟩, by simp, by simp, rfl, rfl, rfl⟩

/-- Right only where there is nothing to find. -/
theorem C179_nothing_partial (lines : List Str) (_ : ∀ l ∈ lines, ¬ FispComment l) : FispactInput.getComments lines = none := rfl

/-! ### C180 -/

section
variable {K : Type} [Field K] [LinearOrder K] [IsStrictOrderedRing K]

private theorem foldl_max_spec (l : List K) (a : K) : (l.foldl max a = a ∨ l.foldl max a ∈ l) ∧ a ≤ l.foldl max a ∧ ∀ x ∈ l, x ≤ l.foldl max a := by
  induction l generalizing a with
  | nil => simp
  | cons b l ih =>
    obtain ⟨h1, h2, h3⟩ := ih (max a b)
    refine ⟨?_, le_trans (le_max_left _ _) h2, ?_⟩
    · rw [List.foldl_cons]
      rcases h1 with h1 | h1
      · rw [h1]
        rcases max_choice a b with h | h <;> simp [h]
      · simp [h1]
    · intro x hx
      rcases List.mem_cons.1 hx with rfl | hx
      · exact le_trans (le_max_right _ _) h2
      · exact h3 x hx

/-- With an old numpy: the values are scaled by one positive factor so that the greatest becomes one half. -/
theorem C180_half_partial (values : List K) (m : K) (hm : m ∈ values) (hmax : ∀ v ∈ values, v ≤ m) (hpos : 0 < m) :
    ∃ r, Magic.normaliseMesh true values = .ok r ∧ r = values.map (fun v => some (v / (2 * m))) ∧ some (1 / 2) ∈ r ∧ ∀ x, some x ∈ r → x ≤ 1 / 2 := by
  have hne : m ≠ 0 := ne_of_gt hpos
  have h2m : (0 : K) < 2 * m := by linarith
  cases values with
  | nil => cases hm
  | cons a l =>
    obtain ⟨h1, h2, h3⟩ := foldl_max_spec l a
    have hm' : l.foldl max a = m := by
      apply le_antisymm
      · rcases h1 with h1 | h1
        · rw [h1]; exact hmax a (by simp)
        · exact hmax _ (List.mem_cons_of_mem _ h1)
      · rcases List.mem_cons.1 hm with rfl | hm
        · exact h2
        · exact h3 m hm
    refine ⟨(a :: l).map (fun v => some (v / (2 * m))), ?_, rfl, ?_, ?_⟩
    · simp only [Magic.normaliseMesh, if_true]
      rw [hm', if_neg hne]
      congr 1
      apply List.map_congr_left
      intro v _
      congr 1
      field_simp
    · refine List.mem_map.2 ⟨m, hm, ?_⟩
      congr 1
      field_simp
    · intro x hx
      obtain ⟨v, hv, hvx⟩ := List.mem_map.1 hx
      cases hvx
      rw [div_le_iff₀ h2m]
      have := hmax v hv
      linarith

/-- numpy 1.24 and later have no `np.float`: the function always raises. -/
theorem C180_numpy_violated (values : List K) : Magic.normaliseMesh false values = .error .AttributeError := rfl

/-- A mesh without any score gives NaN everywhere. -/
theorem C180_zero_violated (n : Nat) : Magic.normaliseMesh true (List.replicate (n + 1) (0 : K)) = .ok (List.replicate (n + 1) none) := by
  have h : ∀ n, (List.replicate n (0 : K)).foldl max 0 = 0 := by
    intro n
    induction n with
    | zero => rfl
    | succ n ih => rw [List.replicate_succ, List.foldl_cons, max_self, ih]
  simp only [List.replicate_succ, Magic.normaliseMesh, if_true]
  rw [h, if_pos rfl]
  simp [List.map_replicate]

example : Magic.normaliseMesh true [(1 : ℚ), 4, 2] = .ok [some (1 / 8), some (1 / 2), some (1 / 4)] := by decide +kernel
end

/-! ### C181 -/

/-- No input gives a weight window file: the call always raises and writes nothing. -/
theorem C181_violated (infile ofile : Str) (fs : FS) : Magic.doMagic infile ofile fs = (.error .AttributeError, fs) := rfl

/-! ### C182 -/

section
variable {F T : Type}

/-- The entries of the lines that contain the marker, in order. -/
def Entries {A : Type} (marker : Str) (val : Str → Option A) (lines : List Str) (vs : List A) : Prop :=
  ∃ p : Str → Bool, (∀ l, p l = true ↔ marker <:+: l) ∧ List.Forall₂ (fun l v => val l = some v) (lines.filter p) vs

private theorem entries_iff {A : Type} {marker : Str} {val : Str → Option A} {lines : List Str} {vs : List A} :
    Entries marker val lines vs ↔ List.Forall₂ (fun l v => val l = some v) (lines.filter (hasSub marker)) vs := by
  constructor
  · rintro ⟨p, hp, h⟩
    have : lines.filter (hasSub marker) = lines.filter p := by
      apply List.filter_congr
      intro l _
      rw [Bool.eq_iff_iff, hp, hasSub_iff]
    rwa [this]
  · intro h
    exact ⟨hasSub marker, fun l => hasSub_iff, h⟩

private theorem entries_cons {A : Type} {marker : Str} {val : Str → Option A} {l : Str} {lines : List Str} {vs : List A} :
    Entries marker val (l :: lines) vs ↔
      (hasSub marker l = true ∧ ∃ v vs', val l = some v ∧ vs = v :: vs' ∧ Entries marker val lines vs') ∨
      (hasSub marker l = false ∧ Entries marker val lines vs) := by
  rw [entries_iff, List.filter_cons]
  cases h : hasSub marker l with
  | true =>
    simp only [if_true, Bool.true_eq_false, false_and, or_false, true_and]
    rw [List.forall₂_cons_left_iff]
    constructor
    · rintro ⟨v, vs', h1, h2, rfl⟩
      exact ⟨v, vs', h1, rfl, entries_iff.2 h2⟩
    · rintro ⟨v, vs', h1, rfl, h2⟩
      exact ⟨v, vs', h1, entries_iff.1 h2, rfl⟩
  | false => simp [entries_iff]

private theorem entries_nil {A : Type} {marker : Str} {val : Str → Option A} {vs : List A} : Entries marker val [] vs ↔ vs = [] := by
  rw [entries_iff]; simp

/-- The five lists of numbers a log holds. -/
structure LogData (flt : Str → Option F) (date : Str → Option T) (lines : List Str) (st : RunPlot.Stats F T) : Prop where
  ctm : Entries p!"ctm" (fun l => flt (slice l 6 18)) lines st.ctm
  nrn : Entries p!"ctm" (fun l => pyInt (slice l 26 44)) lines st.nrn
  coll : Entries p!"dump" (fun l => pyInt (slice l 61 78)) lines st.coll
  nps : Entries p!"master set rendezvous" (fun l => pyInt (slice l 28 40)) lines st.nps
  time : Entries p!"master set rendezvous" (fun l => date (slice l 66 83)) lines st.time

private theorem step_ok {flt : Str → Option F} {date : Str → Option T} {st st' : RunPlot.Stats F T} {l : Str} :
    RunPlot.step flt date st l = .ok st' ↔ ∃ d : RunPlot.Stats F T, LogData flt date [l] d ∧
      st' = ⟨st.ctm ++ d.ctm, st.nrn ++ d.nrn, st.nps ++ d.nps, st.coll ++ d.coll, st.time ++ d.time⟩ := by
  obtain ⟨c0, n0, p0, k0, t0⟩ := st
  unfold RunPlot.step
  have e : ∀ {A : Type} {marker : Str} {val : Str → Option A} {vs : List A}, Entries marker val [l] vs ↔
      (hasSub marker l = true ∧ ∃ v, val l = some v ∧ vs = [v]) ∨ (hasSub marker l = false ∧ vs = []) := by
    intro A marker val vs
    rw [entries_cons]
    simp only [entries_nil]
    constructor
    · rintro (⟨h, v, vs', h1, rfl, rfl⟩ | h)
      · exact .inl ⟨h, v, h1, rfl⟩
      · exact .inr h
    · rintro (⟨h, v, h1, rfl⟩ | h)
      · exact .inl ⟨h, v, [], h1, rfl, rfl⟩
      · exact .inr h
  constructor
  · intro h
    obtain ⟨s1, h1, h⟩ := ex_bind_ok.1 h
    obtain ⟨s2, h2, h3⟩ := ex_bind_ok.1 h
    unfold RunPlot.ctmLine at h1
    unfold RunPlot.dumpLine at h2
    unfold RunPlot.rendezvousLine at h3
    have a1 : ∃ c n, s1 = ⟨c0 ++ c, n0 ++ n, p0, k0, t0⟩ ∧ Entries p!"ctm" (fun l => flt (slice l 6 18)) [l] c ∧
        Entries p!"ctm" (fun l => pyInt (slice l 26 44)) [l] n := by
      split at h1
      · rename_i hs
        obtain ⟨c, hc, h1⟩ := ex_bind_ok.1 h1
        obtain ⟨n, hn, h1⟩ := ex_bind_ok.1 h1
        cases h1
        exact ⟨[c], [n], rfl, e.2 (.inl ⟨hs, c, orErr_ok_iff.1 hc, rfl⟩), e.2 (.inl ⟨hs, n, orErr_ok_iff.1 hn, rfl⟩)⟩
      · rename_i hs
        cases h1
        exact ⟨[], [], by simp, e.2 (.inr ⟨by simpa using hs, rfl⟩), e.2 (.inr ⟨by simpa using hs, rfl⟩)⟩
    obtain ⟨c, n, rfl, hc, hn⟩ := a1
    have a2 : ∃ k, s2 = ⟨c0 ++ c, n0 ++ n, p0, k0 ++ k, t0⟩ ∧ Entries p!"dump" (fun l => pyInt (slice l 61 78)) [l] k := by
      split at h2
      · rename_i hs
        obtain ⟨k, hk, h2⟩ := ex_bind_ok.1 h2
        cases h2
        exact ⟨[k], rfl, e.2 (.inl ⟨hs, k, orErr_ok_iff.1 hk, rfl⟩)⟩
      · rename_i hs
        cases h2
        exact ⟨[], by simp, e.2 (.inr ⟨by simpa using hs, rfl⟩)⟩
    obtain ⟨k, rfl, hk⟩ := a2
    split at h3
    · rename_i hs
      obtain ⟨p, hp, h3⟩ := ex_bind_ok.1 h3
      obtain ⟨t, ht, h3⟩ := ex_bind_ok.1 h3
      cases h3
      exact ⟨⟨c, n, [p], k, [t]⟩, ⟨hc, hn, hk, e.2 (.inl ⟨hs, p, orErr_ok_iff.1 hp, rfl⟩), e.2 (.inl ⟨hs, t, orErr_ok_iff.1 ht, rfl⟩)⟩, rfl⟩
    · rename_i hs
      cases h3
      exact ⟨⟨c, n, [], k, []⟩, ⟨hc, hn, hk, e.2 (.inr ⟨by simpa using hs, rfl⟩), e.2 (.inr ⟨by simpa using hs, rfl⟩)⟩, by simp⟩
  · rintro ⟨⟨c, n, p, k, t⟩, ⟨hc, hn, hk, hp, ht⟩, rfl⟩
    simp only at hc hn hk hp ht ⊢
    rw [e] at hc hn hk hp ht
    have b1 : RunPlot.ctmLine (T := T) flt ⟨c0, n0, p0, k0, t0⟩ l = .ok ⟨c0 ++ c, n0 ++ n, p0, k0, t0⟩ := by
      unfold RunPlot.ctmLine
      rcases hc with ⟨hs, v, hv, rfl⟩ | ⟨hs, rfl⟩
      · rcases hn with ⟨_, w, hw, rfl⟩ | ⟨hs', _⟩
        · rw [if_pos hs, hv, hw]; rfl
        · rw [hs] at hs'; cases hs'
      · rcases hn with ⟨hs', _⟩ | ⟨_, rfl⟩
        · rw [hs] at hs'; cases hs'
        · rw [if_neg (by simp [hs])]; simp
    have b2 : RunPlot.dumpLine ⟨c0 ++ c, n0 ++ n, p0, k0, t0⟩ l = .ok (⟨c0 ++ c, n0 ++ n, p0, k0 ++ k, t0⟩ : RunPlot.Stats F T) := by
      unfold RunPlot.dumpLine
      rcases hk with ⟨hs, v, hv, rfl⟩ | ⟨hs, rfl⟩
      · rw [if_pos hs, hv]; rfl
      · rw [if_neg (by simp [hs])]; simp
    rw [b1, ex_ok_bind, b2, ex_ok_bind]
    unfold RunPlot.rendezvousLine
    rcases hp with ⟨hs, v, hv, rfl⟩ | ⟨hs, rfl⟩
    · rcases ht with ⟨_, w, hw, rfl⟩ | ⟨hs', _⟩
      · rw [if_pos hs, hv, hw]; rfl
      · rw [hs] at hs'; cases hs'
    · rcases ht with ⟨hs', _⟩ | ⟨_, rfl⟩
      · rw [hs] at hs'; cases hs'
      · rw [if_neg (by simp [hs])]; simp

private theorem entries_split {A : Type} {marker : Str} {val : Str → Option A} {l : Str} {lines : List Str} {vs : List A} :
    Entries marker val (l :: lines) vs ↔ ∃ a b, vs = a ++ b ∧ Entries marker val [l] a ∧ Entries marker val lines b := by
  constructor
  · intro h
    rcases entries_cons.1 h with ⟨hs, v, vs', h1, rfl, h2⟩ | ⟨hs, h2⟩
    · exact ⟨[v], vs', rfl, entries_cons.2 (.inl ⟨hs, v, [], h1, rfl, entries_nil.2 rfl⟩), h2⟩
    · exact ⟨[], vs, rfl, entries_cons.2 (.inr ⟨hs, entries_nil.2 rfl⟩), h2⟩
  · rintro ⟨a, b, rfl, h1, h2⟩
    rcases entries_cons.1 h1 with ⟨hs, v, vs', h, rfl, h3⟩ | ⟨hs, h3⟩
    · rw [entries_nil] at h3
      subst h3
      exact entries_cons.2 (.inl ⟨hs, v, b, h, rfl, h2⟩)
    · rw [entries_nil] at h3
      subst h3
      exact entries_cons.2 (.inr ⟨hs, h2⟩)

private theorem loop_ok {flt : Str → Option F} {date : Str → Option T} {lines : List Str} {st st' : RunPlot.Stats F T} :
    lines.foldlM (RunPlot.step flt date) st = .ok st' ↔ ∃ d : RunPlot.Stats F T, LogData flt date lines d ∧
      st' = ⟨st.ctm ++ d.ctm, st.nrn ++ d.nrn, st.nps ++ d.nps, st.coll ++ d.coll, st.time ++ d.time⟩ := by
  induction lines generalizing st with
  | nil =>
    constructor
    · intro h
      cases h
      exact ⟨⟨[], [], [], [], []⟩, ⟨entries_nil.2 rfl, entries_nil.2 rfl, entries_nil.2 rfl, entries_nil.2 rfl, entries_nil.2 rfl⟩, by simp⟩
    · rintro ⟨d, ⟨h1, h2, h3, h4, h5⟩, rfl⟩
      rw [entries_nil] at h1 h2 h3 h4 h5
      rw [h1, h2, h3, h4, h5]
      simp only [List.append_nil]
      rfl
  | cons l ls ih =>
    rw [List.foldlM_cons, ex_bind_ok]
    constructor
    · rintro ⟨s, h1, h2⟩
      obtain ⟨d1, ⟨a1, a2, a3, a4, a5⟩, rfl⟩ := step_ok.1 h1
      obtain ⟨d2, ⟨b1, b2, b3, b4, b5⟩, rfl⟩ := ih.1 h2
      exact ⟨⟨d1.ctm ++ d2.ctm, d1.nrn ++ d2.nrn, d1.nps ++ d2.nps, d1.coll ++ d2.coll, d1.time ++ d2.time⟩,
        ⟨entries_split.2 ⟨_, _, rfl, a1, b1⟩, entries_split.2 ⟨_, _, rfl, a2, b2⟩, entries_split.2 ⟨_, _, rfl, a3, b3⟩,
          entries_split.2 ⟨_, _, rfl, a4, b4⟩, entries_split.2 ⟨_, _, rfl, a5, b5⟩⟩, by simp⟩
    · rintro ⟨d, ⟨h1, h2, h3, h4, h5⟩, rfl⟩
      obtain ⟨a1, b1, e1, x1, y1⟩ := entries_split.1 h1
      obtain ⟨a2, b2, e2, x2, y2⟩ := entries_split.1 h2
      obtain ⟨a3, b3, e3, x3, y3⟩ := entries_split.1 h3
      obtain ⟨a4, b4, e4, x4, y4⟩ := entries_split.1 h4
      obtain ⟨a5, b5, e5, x5, y5⟩ := entries_split.1 h5
      refine ⟨_, step_ok.2 ⟨⟨a1, a2, a4, a3, a5⟩, ⟨x1, x2, x3, x4, x5⟩, rfl⟩, ih.2 ⟨⟨b1, b2, b4, b3, b5⟩, ⟨y1, y2, y3, y4, y5⟩, ?_⟩⟩
      simp [e1, e2, e3, e4, e5]

private theorem plot_ok {A B : Type} {x : List A} {y : List B} {r : List A × List B} :
    RunPlot.plot x y = .ok r ↔ x.length = y.length ∧ r = (x, y) := by
  unfold RunPlot.plot
  split
  · rename_i h; simp [h, eq_comm]
  · rename_i h; simp [h]

/-- The figure is drawn exactly if every marked line holds its numbers and there is one line of computer time and one dump more than
    rendezvous (or neither lines of one kind nor rendezvous); it shows the particles over the times of the rendezvous, and the computer times,
    random numbers and collisions without the first over the particles. -/
theorem C182_curves (flt : Str → Option F) (date : Str → Option T) (lines : List Str) (fig : RunPlot.Fig F T) :
    RunPlot.figure flt date lines = .ok fig ↔ ∃ d : RunPlot.Stats F T, LogData flt date lines d ∧
      d.nps.length = d.ctm.length - 1 ∧ d.nps.length = d.coll.length - 1 ∧
      fig = ⟨(d.time, d.nps), (d.nps, d.ctm.tail), (d.nps, d.nrn.tail), (d.nps, d.coll.tail)⟩ := by
  have same : ∀ {A B : Type} {m : Str} {f : Str → Option A} {g : Str → Option B} {xs : List A} {ys : List B},
      Entries m f lines xs → Entries m g lines ys → xs.length = ys.length := by
    intro A B m f g xs ys h1 h2
    rw [← (entries_iff.1 h1).length_eq, ← (entries_iff.1 h2).length_eq]
  unfold RunPlot.figure
  constructor
  · intro h
    obtain ⟨st, h1, h⟩ := ex_bind_ok.1 h
    obtain ⟨a, ha, h⟩ := ex_bind_ok.1 h
    obtain ⟨b, hb, h⟩ := ex_bind_ok.1 h
    obtain ⟨c, hc, h⟩ := ex_bind_ok.1 h
    obtain ⟨e, he, h⟩ := ex_bind_ok.1 h
    cases h
    obtain ⟨d, hd, rfl⟩ := loop_ok.1 h1
    simp only [List.nil_append, plot_ok, List.length_drop] at ha hb hc he
    exact ⟨d, hd, hb.1, he.1, by rw [ha.2, hb.2, hc.2, he.2]; simp⟩
  · rintro ⟨d, hd, h1, h2, rfl⟩
    have hn := same hd.ctm hd.nrn
    have ht := same hd.time hd.nps
    rw [loop_ok.2 ⟨d, hd, rfl⟩]
    simp only [List.nil_append, ex_ok_bind]
    rw [plot_ok.2 ⟨ht, rfl⟩, ex_ok_bind, plot_ok.2 ⟨by simpa using h1, rfl⟩, ex_ok_bind,
      plot_ok.2 ⟨by rw [List.length_drop, ← hn]; exact h1, rfl⟩, ex_ok_bind, plot_ok.2 ⟨by simpa using h2, rfl⟩, ex_ok_bind]
    simp only [List.drop_one]
    rfl

/-- Everything else raises ValueError. -/
theorem C182_error (flt : Str → Option F) (date : Str → Option T) (lines : List Str) (e : Err) (h : RunPlot.figure flt date lines = .error e) :
    e = .ValueError := by
  have hp : ∀ {A B : Type} {x : List A} {y : List B} {e : Err}, RunPlot.plot x y = .error e → e = .ValueError := by
    intro A B x y e h
    unfold RunPlot.plot at h
    split at h
    · cases h
    · cases h; rfl
  have bind_cases : ∀ {A B : Type} {m : Except Err A} {f : A → Except Err B} {e : Err}, (m >>= f) = .error e → m = .error e ∨ ∃ a, m = .ok a ∧ f a = .error e := by
    intro A B m f e h
    cases m with
    | error e' => cases h; exact .inl rfl
    | ok a => exact .inr ⟨a, rfl, h⟩
  have ho : ∀ {A : Type} {x : Option A} {e : Err}, orErr .ValueError x = .error e → e = .ValueError := by
    intro A x e h
    cases x with
    | none => cases h; rfl
    | some a => cases h
  have hstep : ∀ (st : RunPlot.Stats F T) (l : Str) (e : Err), RunPlot.step flt date st l = .error e → e = .ValueError := by
    intro st l e h
    rcases bind_cases h with h | ⟨s1, _, h⟩
    · unfold RunPlot.ctmLine at h
      split at h
      · rcases bind_cases h with h | ⟨_, _, h⟩
        · exact ho h
        · rcases bind_cases h with h | ⟨_, _, h⟩
          · exact ho h
          · cases h
      · cases h
    rcases bind_cases h with h | ⟨s2, _, h⟩
    · unfold RunPlot.dumpLine at h
      split at h
      · rcases bind_cases h with h | ⟨_, _, h⟩
        · exact ho h
        · cases h
      · cases h
    unfold RunPlot.rendezvousLine at h
    split at h
    · rcases bind_cases h with h | ⟨_, _, h⟩
      · exact ho h
      · rcases bind_cases h with h | ⟨_, _, h⟩
        · exact ho h
        · cases h
    · cases h
  have hloop : ∀ (ls : List Str) (st : RunPlot.Stats F T) (e : Err), ls.foldlM (RunPlot.step flt date) st = .error e → e = .ValueError := by
    intro ls
    induction ls with
    | nil => intro st e h; cases h
    | cons l ls ih =>
      intro st e h
      rw [List.foldlM_cons] at h
      rcases bind_cases h with h | ⟨s, _, h⟩
      · exact hstep _ _ _ h
      · exact ih _ _ h
  unfold RunPlot.figure at h
  rcases bind_cases h with h | ⟨_, _, h⟩
  · exact hloop _ _ _ h
  rcases bind_cases h with h | ⟨_, _, h⟩
  · exact hp h
  rcases bind_cases h with h | ⟨_, _, h⟩
  · exact hp h
  rcases bind_cases h with h | ⟨_, _, h⟩
  · exact hp h
  rcases bind_cases h with h | ⟨_, _, h⟩
  · exact hp h
  · cases h

/-- The file. -/
theorem C182_file (flt : Str → Option F) (date : Str → Option T) (path : Str) (fs : FS) :
    (∀ c, fs.node path = some (.file c) → RunPlot.plotNpsStats flt date path fs = (RunPlot.figure flt date (splitlines (univNL c)), fs)) ∧
    (fs.node path = none → RunPlot.plotNpsStats flt date path fs = (.error .FileNotFoundError, fs)) := by
  unfold RunPlot.plotNpsStats
  exact ⟨fun c h => by rw [PyM.bind_ok (getLines_file h), PyM.lift_run], fun h => PyM.bind_err (getLines_none h)⟩

private def pad (n : Nat) (s : Str) : Str := List.replicate n ' ' ++ s

example : RunPlot.figure pyInt (fun _ => some ()) [p!" ctm =         1     nrn =         7", p!"dump" ++ pad 60 p!"3",
    p!"master set rendezvous nps = " ++ p!"      100   " , p!" ctm =         2     nrn =         9", p!"dump" ++ pad 60 p!"5"] =
    .ok ⟨([()], [100]), ([100], [2]), ([100], [9]), ([100], [5])⟩ := by decide +kernel
end

/-! ### C183 -/

/-- `q` is `p` or one of the directories above it. -/
inductive LeadsTo : Str → Str → Prop
  | self (p : Str) : LeadsTo p p
  | up {p d q : Str} : parent p = some d → d ≠ [] → LeadsTo d q → LeadsTo p q

private theorem parent_length {p d : Str} (h : parent p = some d) : d.length < p.length := by
  unfold parent at h
  have hl := (List.dropWhile_sublist (fun c : Char => decide (c ≠ '/')) (l := p.reverse)).length_le
  split at h
  · cases h
  · rename_i c r he
    cases h
    rw [he] at hl
    simp at hl ⊢
    omega

private theorem put_node {fs : FS} {p : Str} {n : Node} (q : Str) : (fs.put p n).node q = if q = p then some n else fs.node q := rfl

/-- What `mkdirParents` may do to a file system. -/
private def Grows (p : Str) (fs fs' : FS) : Prop :=
  fs'.perm = fs.perm ∧ ∀ q, fs'.node q = fs.node q ∨ (LeadsTo p q ∧ fs.node q = none ∧ fs'.node q = some .dir)

private theorem Grows.refl (p : Str) (fs : FS) : Grows p fs fs := ⟨rfl, fun _ => .inl rfl⟩

private theorem Grows.trans {p : Str} {a b c : FS} (h1 : Grows p a b) (h2 : Grows p b c) : Grows p a c := by
  refine ⟨h2.1.trans h1.1, fun q => ?_⟩
  rcases h1.2 q with e1 | ⟨a1, b1, c1⟩
  · rcases h2.2 q with e2 | ⟨a2, b2, c2⟩
    · exact .inl (e2.trans e1)
    · exact .inr ⟨a2, by rw [← e1]; exact b2, c2⟩
  · rcases h2.2 q with e2 | ⟨a2, b2, c2⟩
    · exact .inr ⟨a1, b1, by rw [e2]; exact c1⟩
    · rw [c1] at b2; cases b2

private theorem Grows.up {p d : Str} {a b : FS} (hp : parent p = some d) (hd : d ≠ []) (h : Grows d a b) : Grows p a b :=
  ⟨h.1, fun q => (h.2 q).imp id (fun ⟨x, y, z⟩ => ⟨.up hp hd x, y, z⟩)⟩

private theorem osMkdir_cases (p : Str) (fs : FS) :
    (∃ d, parent p = some d ∧ d ≠ [] ∧ fs.node d = none ∧ osMkdir p fs = (.error .FileNotFoundError, fs)) ∨
    (∃ d c, parent p = some d ∧ d ≠ [] ∧ fs.node d = some (.file c) ∧ osMkdir p fs = (.error .OSError, fs)) ∨
    ((∀ d, parent p = some d → d ≠ [] → fs.node d = some .dir) ∧
      ((fs.node p = none ∧ fs.perm p = true ∧ osMkdir p fs = (.ok (), fs.put p .dir)) ∨
       (¬ (fs.node p = none ∧ fs.perm p = true) ∧ osMkdir p fs = (.error .OSError, fs)))) := by
  have fin : ((if (fs.node p).isNone && fs.perm p then ((.ok (), fs.put p .dir) : Except Err Unit × FS) else (.error .OSError, fs)) = (.ok (), fs.put p .dir) ∧
      fs.node p = none ∧ fs.perm p = true) ∨
      ((if (fs.node p).isNone && fs.perm p then ((.ok (), fs.put p .dir) : Except Err Unit × FS) else (.error .OSError, fs)) = (.error .OSError, fs) ∧
      ¬ (fs.node p = none ∧ fs.perm p = true)) := by
    by_cases h : (fs.node p).isNone && fs.perm p
    · left
      simp only [Bool.and_eq_true, Option.isNone_iff_eq_none] at h
      simp [h.1, h.2]
    · right
      simp only [Bool.and_eq_true, Option.isNone_iff_eq_none] at h
      refine ⟨?_, h⟩
      rw [if_neg]
      simpa using h
  unfold osMkdir
  cases hp : parent p with
  | none =>
    right; right
    refine ⟨(fun d h => by cases h), ?_⟩
    rcases fin with ⟨h1, h2, h3⟩ | ⟨h1, h2⟩
    · exact .inl ⟨h2, h3, h1⟩
    · exact .inr ⟨h2, h1⟩
  | some d =>
    cases d with
    | nil =>
      right; right
      refine ⟨(fun d h hd => by cases h; exact absurd rfl hd), ?_⟩
      rcases fin with ⟨h1, h2, h3⟩ | ⟨h1, h2⟩
      · exact .inl ⟨h2, h3, h1⟩
      · exact .inr ⟨h2, h1⟩
    | cons c d =>
      simp only
      cases hn : fs.node (c :: d) with
      | none => exact .inl ⟨_, rfl, by simp, hn, rfl⟩
      | some n =>
        cases n with
        | file t => exact .inr (.inl ⟨_, t, rfl, by simp, hn, rfl⟩)
        | dir =>
          right; right
          refine ⟨(fun d' h _ => by cases h; exact hn), ?_⟩
          rcases fin with ⟨h1, h2, h3⟩ | ⟨h1, h2⟩
          · exact .inl ⟨h2, h3, h1⟩
          · exact .inr ⟨h2, h1⟩

private theorem put_grows {p : Str} {fs : FS} (h : fs.node p = none) : Grows p fs (fs.put p .dir) := by
  refine ⟨rfl, fun q => ?_⟩
  rw [put_node]
  by_cases hq : q = p
  · subst hq
    right
    exact ⟨.self q, h, by simp⟩
  · left; simp [hq]

private theorem okIfDir_os (p : Str) (fs : FS) : okIfDir p (osMkdir p fs) = osMkdir p fs ∨
    (fs.node p = some .dir ∧ okIfDir p (osMkdir p fs) = (.ok (), fs)) := by
  rcases osMkdir_cases p fs with ⟨d, _, _, _, h⟩ | ⟨d, c, _, _, _, h⟩ | ⟨_, ⟨_, _, h⟩ | ⟨_, h⟩⟩
  · left; rw [h]; rfl
  · rw [h]
    by_cases hd : fs.node p = some .dir
    · right; exact ⟨hd, by simp [okIfDir, hd]⟩
    · left; simp [okIfDir, hd]
  · left; rw [h]; rfl
  · rw [h]
    by_cases hd : fs.node p = some .dir
    · right; exact ⟨hd, by simp [okIfDir, hd]⟩
    · left; simp [okIfDir, hd]

private theorem okIfDir_grows (p : Str) (fs : FS) : Grows p fs (okIfDir p (osMkdir p fs)).2 ∧
    ((okIfDir p (osMkdir p fs)).1 = .ok () → (okIfDir p (osMkdir p fs)).2.node p = some .dir) := by
  rcases okIfDir_os p fs with h | ⟨hd, h⟩
  · rw [h]
    rcases osMkdir_cases p fs with ⟨d, _, _, _, h⟩ | ⟨d, c, _, _, _, h⟩ | ⟨_, ⟨h1, _, h⟩ | ⟨_, h⟩⟩
    · rw [h]; exact ⟨.refl _ _, fun h => by cases h⟩
    · rw [h]; exact ⟨.refl _ _, fun h => by cases h⟩
    · rw [h]; exact ⟨put_grows h1, fun _ => by rw [put_node]; simp⟩
    · rw [h]; exact ⟨.refl _ _, fun h => by cases h⟩
  · rw [h]; exact ⟨.refl _ _, fun _ => hd⟩

private theorem mkdirParents_eq (fuel : Nat) (p : Str) (fs : FS) :
    (∃ d, parent p = some d ∧ d ≠ [] ∧ fs.node d = none ∧
      mkdirParents (fuel + 1) p fs = match mkdirParents fuel d fs with
        | (.ok (), fs2) => okIfDir p (osMkdir p fs2)
        | r => r) ∨
    ((∀ d, parent p = some d → d ≠ [] → fs.node d ≠ none) ∧ mkdirParents (fuel + 1) p fs = okIfDir p (osMkdir p fs)) := by
  simp only [mkdirParents]
  rcases osMkdir_cases p fs with ⟨d, hp, hd, hn, h⟩ | ⟨d, c, hp, hd, hn, h⟩ | ⟨hall, ⟨_, _, h⟩ | ⟨_, h⟩⟩
  · left
    refine ⟨d, hp, hd, hn, ?_⟩
    rw [h, hp]
    rfl
  · right
    refine ⟨fun d' hp' _ => by rw [hp] at hp'; cases hp'; rw [hn]; simp, ?_⟩
    rw [h]
  · right
    refine ⟨fun d' hp' hd' => by rw [hall d' hp' hd']; simp, ?_⟩
    rw [h]
  · right
    refine ⟨fun d' hp' hd' => by rw [hall d' hp' hd']; simp, ?_⟩
    rw [h]

private theorem mkdirParents_grows (fuel : Nat) (p : Str) (fs : FS) : Grows p fs (mkdirParents fuel p fs).2 ∧
    ((mkdirParents fuel p fs).1 = .ok () → (mkdirParents fuel p fs).2.node p = some .dir) := by
  induction fuel generalizing p fs with
  | zero => exact ⟨.refl _ _, fun h => by cases h⟩
  | succ n ih =>
    rcases mkdirParents_eq n p fs with ⟨d, hp, hd, hn, h⟩ | ⟨_, h⟩
    · rw [h]
      obtain ⟨g, _⟩ := ih d fs
      have g' := g.up hp hd
      rcases hr : mkdirParents n d fs with ⟨r, fs2⟩
      rw [hr] at g'
      cases r with
      | ok u =>
        simp only
        obtain ⟨g2, k2⟩ := okIfDir_grows p fs2
        exact ⟨g'.trans g2, k2⟩
      | error e => exact ⟨g', fun h => by cases h⟩
    · rw [h]; exact okIfDir_grows p fs

/-- A call that returns leaves a directory at the path; in any case nothing that existed is changed and only directories that lead to the
    path are made. -/
theorem C183_made (p : Str) (fs : FS) :
    ((ensureDirExists p fs).1 = .ok () → (ensureDirExists p fs).2.node p = some .dir) ∧
    (∀ q n, fs.node q = some n → (ensureDirExists p fs).2.node q = some n) ∧
    (∀ q, (ensureDirExists p fs).2.node q ≠ fs.node q → LeadsTo p q ∧ (ensureDirExists p fs).2.node q = some .dir) := by
  obtain ⟨g, h⟩ := mkdirParents_grows (p.length + 1) p fs
  refine ⟨h, fun q n hq => ?_, fun q hq => ?_⟩
  · rcases g.2 q with e | ⟨_, e, _⟩
    · exact e.trans hq
    · rw [hq] at e; cases e
  · rcases g.2 q with e | ⟨a, _, e⟩
    · exact absurd e hq
    · exact ⟨a, e⟩

/-- The call succeeds whenever neither the path nor a directory above it is a file and the missing ones may be made; in particular a second
    call changes nothing. -/
theorem C183_succeeds (p : Str) (fs : FS) (hf : ∀ q c, LeadsTo p q → fs.node q ≠ some (.file c))
    (hp : ∀ q, LeadsTo p q → fs.node q = none → fs.perm q = true) : (ensureDirExists p fs).1 = .ok () := by
  have fin : ∀ (p : Str) (fs : FS), (∀ c, fs.node p ≠ some (.file c)) → (fs.node p = none → fs.perm p = true) →
      (∀ d, parent p = some d → d ≠ [] → fs.node d = some .dir) → (okIfDir p (osMkdir p fs)).1 = .ok () := by
    intro p fs h1 h2 h3
    rcases osMkdir_cases p fs with ⟨d, a, b, c, h⟩ | ⟨d, c, a, b, e, h⟩ | ⟨_, ⟨_, _, h⟩ | ⟨hn, h⟩⟩
    · rw [h3 d a b] at c; cases c
    · rw [h3 d a b] at e; cases e
    · rw [h]; rfl
    · have : fs.node p = some .dir := by
        cases hx : fs.node p with
        | none => exact absurd ⟨hx, h2 hx⟩ hn
        | some n =>
          cases n with
          | file c => exact absurd hx (h1 c)
          | dir => rfl
      rw [h]
      simp [okIfDir, this]
  have key : ∀ (fuel : Nat) (p : Str) (fs : FS), p.length < fuel → (∀ q c, LeadsTo p q → fs.node q ≠ some (.file c)) →
      (∀ q, LeadsTo p q → fs.node q = none → fs.perm q = true) → (mkdirParents fuel p fs).1 = .ok () := by
    intro fuel
    induction fuel with
    | zero => intro p fs h; omega
    | succ n ih =>
      intro p fs hl hf hp
      rcases mkdirParents_eq n p fs with ⟨d, hpar, hd, hn, h⟩ | ⟨hall, h⟩
      · rw [h]
        have hlen := parent_length hpar
        have hok := ih d fs (by omega) (fun q c hq => hf q c (.up hpar hd hq)) (fun q hq => hp q (.up hpar hd hq))
        obtain ⟨g, k⟩ := mkdirParents_grows n d fs
        rcases hr : mkdirParents n d fs with ⟨r, fs2⟩
        rw [hr] at hok g k
        simp only at hok g k
        rw [hok]
        have nodes : ∀ q, fs2.node q = fs.node q ∨ fs2.node q = some .dir := fun q => (g.2 q).imp id (fun x => x.2.2)
        apply fin
        · intro c hc
          rcases nodes p with e | e
          · exact hf p c (.self p) (by rw [← e]; exact hc)
          · rw [e] at hc; cases hc
        · intro hx
          rcases nodes p with e | e
          · rw [g.1]; exact hp p (.self p) (by rw [← e]; exact hx)
          · rw [e] at hx; cases hx
        · intro d' hp' hd'
          rw [hpar] at hp'
          cases hp'
          exact k hok
      · rw [h]
        apply fin
        · exact fun c => hf p c (.self p)
        · exact hp p (.self p)
        · intro d hd hd'
          cases hx : fs.node d with
          | none => exact absurd hx (hall d hd hd')
          | some nd =>
            cases nd with
            | dir => rfl
            | file c => exact absurd hx (hf d c (.up hd hd' (.self d)))
  exact key _ p fs (by omega) hf hp

/-- A directory that exists together with those above it is left alone. -/
theorem C183_again (p : Str) (fs : FS) (h : fs.node p = some .dir) (hu : ∀ d, parent p = some d → d ≠ [] → fs.node d = some .dir) :
    ensureDirExists p fs = (.ok (), fs) := by
  rcases mkdirParents_eq p.length p fs with ⟨d, hp, hd, hn, _⟩ | ⟨_, he⟩
  · rw [hu d hp hd] at hn; cases hn
  · show mkdirParents (p.length + 1) p fs = _
    rw [he]
    rcases osMkdir_cases p fs with ⟨d, a, b, c, _⟩ | ⟨d, c, a, b, e, _⟩ | ⟨_, ⟨x, _, _⟩ | ⟨_, hx⟩⟩
    · rw [hu d a b] at c; cases c
    · rw [hu d a b] at e; cases e
    · rw [h] at x; cases x
    · rw [hx]; simp [okIfDir, h]

/-- A file at the path is not replaced: OSError. -/
theorem C183_file (p c : Str) (fs : FS) (h : fs.node p = some (.file c)) (hu : ∀ d, parent p = some d → d ≠ [] → fs.node d = some .dir) :
    ensureDirExists p fs = (.error .OSError, fs) := by
  rcases mkdirParents_eq p.length p fs with ⟨d, hp, hd, hn, _⟩ | ⟨_, he⟩
  · rw [hu d hp hd] at hn; cases hn
  · show mkdirParents (p.length + 1) p fs = _
    rw [he]
    rcases osMkdir_cases p fs with ⟨d, a, b, c, _⟩ | ⟨d, c, a, b, e, _⟩ | ⟨_, ⟨x, _, _⟩ | ⟨_, hx⟩⟩
    · rw [hu d a b] at c; cases c
    · rw [hu d a b] at e; cases e
    · rw [h] at x; cases x
    · rw [hx]; simp [okIfDir, h]

private def emptyFS : FS := ⟨fun _ => none, fun _ => true⟩

example : (ensureDirExists p!"a/b/c" emptyFS).1 = .ok () ∧ (ensureDirExists p!"a/b/c" emptyFS).2.node p!"a/b" = some .dir ∧
    (ensureDirExists p!"a/b/c" emptyFS).2.node p!"b" = none := by decide +kernel

/-! ### C184 -/

/-- An energy is accepted exactly if it is not above the first boundary; no boundaries raise ValueError. -/
theorem C184_bound {K : Type} [LinearOrder K] (g : K) (gs : List K) (e : K) :
    ∃ b, FluxesWriter.checkUpperBound (some (g :: gs)) (some e) = .ok b ∧ (b = true ↔ e ≤ g) := by
  unfold FluxesWriter.checkUpperBound
  by_cases h : e > g
  · exact ⟨false, by simp [h], by simpa using h⟩
  · exact ⟨true, by simp [h], by simpa using h⟩

/-- In a structure with falling boundaries this is the greatest one. -/
theorem C184_greatest {K : Type} [LinearOrder K] (groups : List K) (hne : groups ≠ []) (hs : groups.Pairwise (· > ·)) (e : K) :
    ∃ b, FluxesWriter.checkUpperBound (some groups) (some e) = .ok b ∧ (b = true ↔ ∃ g ∈ groups, e ≤ g) := by
  cases groups with
  | nil => exact absurd rfl hne
  | cons g gs =>
    obtain ⟨b, h1, h2⟩ := C184_bound g gs e
    refine ⟨b, h1, h2.trans ⟨fun h => ⟨g, by simp, h⟩, ?_⟩⟩
    rintro ⟨x, hx, hex⟩
    rcases List.mem_cons.1 hx with rfl | hx
    · exact hex
    · exact hex.trans ((List.pairwise_cons.1 hs).1 x hx).le

/-- No groups, or no list at all: ValueError. -/
theorem C184_error {K : Type} [LinearOrder K] (e : Option K) : FluxesWriter.checkUpperBound (some ([] : List K)) e = .error .ValueError ∧
    FluxesWriter.checkUpperBound (none : Option (List K)) e = .error .ValueError := ⟨rfl, rfl⟩

example : FluxesWriter.checkUpperBound (some [(3 : ℚ), 2]) (some (5 / 2)) = .ok true ∧ FluxesWriter.checkUpperBound (some [(3 : ℚ), 2]) (some 4) = .ok false := by
  decide +kernel

/-! ### C185 -/

/-- With a first cooling row the time steps from that one on are returned. -/
theorem C185_steps_partial {K A : Type} (rows : List (FispactOutput.SumRow K)) (steps : List A) (i : Nat)
    (h : FispactOutput.findFirstCoolingIndex (rows.zipIdx.map (fun e => (e.2, e.1))) = some i) :
    (∃ r, rows[i]? = some r ∧ r.cooling = true) ∧ (∀ j r, j < i → rows[j]? = some r → r.cooling = false) ∧
    ∃ before, steps.length ≤ i ∧ FispactAnalysis.coolingTsData (some i) steps = [] ∨
      i ≤ steps.length ∧ before.length = i ∧ steps = before ++ FispactAnalysis.coolingTsData (some i) steps := by
  have key : ∀ (rows : List (FispactOutput.SumRow K)) (k i : Nat),
      FispactOutput.findFirstCoolingIndex ((rows.zipIdx k).map (fun e => (e.2, e.1))) = some i →
      k ≤ i ∧ (∃ r, rows[i - k]? = some r ∧ r.cooling = true) ∧ ∀ j r, j < i - k → rows[j]? = some r → r.cooling = false := by
    intro rows
    induction rows with
    | nil => intro k i h; cases h
    | cons r rs ih =>
      intro k i h
      unfold FispactOutput.findFirstCoolingIndex at h
      rw [List.zipIdx_cons, List.map_cons, List.filter_cons] at h
      by_cases hc : r.cooling = true
      · simp only [hc, if_true] at h
        cases h
        exact ⟨le_refl _, ⟨r, by simp, hc⟩, fun j r' hj => by omega⟩
      · simp only [hc, if_false] at h
        obtain ⟨h1, ⟨x, h2, h3⟩, h4⟩ := ih (k + 1) i h
        have e : i - k = (i - (k + 1)) + 1 := by omega
        refine ⟨by omega, ⟨x, by rw [e]; simpa using h2, h3⟩, ?_⟩
        intro j r' hj hr
        cases j with
        | zero => simp at hr; subst hr; simpa using hc
        | succ j => exact h4 j r' (by omega) (by simpa using hr)
  obtain ⟨_, h2, h3⟩ := key rows 0 i h
  refine ⟨by simpa using h2, by simpa using h3, steps.take i, ?_⟩
  by_cases hl : i ≤ steps.length
  · right
    exact ⟨hl, by simp [hl], (List.take_append_drop i steps).symm⟩
  · left
    exact ⟨by omega, List.drop_of_length_le (by simp; omega)⟩

/-- Without any cooling row all time steps are returned instead of none. -/
theorem C185_violated {K A : Type} (rows : List (FispactOutput.SumRow K)) (steps : List A) (h : ∀ r ∈ rows, r.cooling = false) :
    FispactAnalysis.coolingTsData (FispactOutput.findFirstCoolingIndex (rows.zipIdx.map (fun e => (e.2, e.1)))) steps = steps := by
  have : FispactOutput.findFirstCoolingIndex (rows.zipIdx.map (fun e => (e.2, e.1))) = none := by
    unfold FispactOutput.findFirstCoolingIndex
    have : (rows.zipIdx.map (fun e => (e.2, e.1))).filter (fun r => r.2.cooling) = [] := by
      rw [List.filter_eq_nil_iff]
      intro x hx
      simp only [List.mem_map] at hx
      obtain ⟨⟨r, i⟩, hm, rfl⟩ := hx
      have := (List.mem_zipIdx' hm).2
      simp [h r (by rw [this]; exact List.getElem_mem _)]
    rw [this]
  rw [this]
  rfl

private def row (c : Bool) : FispactOutput.SumRow ℚ := ⟨1, 0, 0, 0, 0, 0, 0, c, 0, 0, 0⟩

example : FispactAnalysis.coolingTsData (FispactOutput.findFirstCoolingIndex (([row false, row true, row true] : List _).zipIdx.map (fun e => (e.2, e.1))))
    [10, 20, 30] = [20, 30] := by decide +kernel

/-! ### C186 -/

private theorem join_lines {ls : List Str} (hne : ls ≠ []) (h : ∀ l ∈ ls, '\n' ∉ l) : splitOn '\n' (join p!"\n" ls) = ls := splitOn_join hne h

private theorem int_noNL (n : Int) : '\n' ∉ intStr n := by
  unfold intStr
  cases n with
  | ofNat n =>
    intro h
    have := natStr_isDigit (n := n) (by simpa using h)
    exact absurd this (by decide)
  | negSucc n =>
    intro h
    simp at h
    have := natStr_isDigit h
    exact absurd this (by decide)

private theorem nat_noNL (n : Nat) : '\n' ∉ natStr n := fun h => absurd (natStr_isDigit h) (by decide)

private theorem flag_noNL {label : Str} (h : '\n' ∉ label) (b : Bool) : '\n' ∉ McnpOutput.flagText label b := by
  unfold McnpOutput.flagText
  cases b <;> simp [h]

/-- The description of a tally of a supported type starts with its number and particle and says on a line of its own, and rightly, whether
    there are energy bins and time bins; cell tallies also give the number of cells, surface tallies that of surfaces and whether there are
    angle bins, detectors their position. -/
theorem C186_text {F : Type} (num : F → Str) (t : McnpOutput.Tally F) (hp : '\n' ∉ t.particle) (hn : ∀ x, '\n' ∉ num x)
    (ht : t.tallyType ∈ ['1', '2', '4', '5', '6', '8']) :
    ∃ text mid post, McnpOutput.tallyText num t = some text ∧
      splitOn '\n' text = [p!"Tally number: " ++ intStr t.number, p!"Particle: " ++ t.particle] ++ mid ++
        [if t.eng.isSome then p!"Energy Bins: True" else p!"Energy Bins: False",
         if t.times.isSome then p!"Time Bins: True" else p!"Time Bins: False"] ++ post ∧
      (t.tallyType ∈ ['4', '6', '8'] → mid = [p!"Number of Cells: " ++ natStr t.cells.length] ∧ post = []) ∧
      (t.tallyType ∈ ['1', '2'] → mid = [p!"Number of Surfaces: " ++ natStr t.surfaces.length] ∧
        post = [if t.angBins.isSome then p!"Angular Bins: True" else p!"Angular Bins: False"]) ∧
      (t.tallyType = '5' → post = [] ∧ ∀ x y z, t.pos = some (x, y, z) → mid = [p!"X: " ++ num x, p!"Y: " ++ num y, p!"Z: " ++ num z]) := by
  have f : ∀ (a : Str) (b : Bool), McnpOutput.flagText a b = if b then a ++ p!"True" else a ++ p!"False" := by
    intro a b; unfold McnpOutput.flagText; cases b <;> rfl
  have e1 : McnpOutput.flagText p!"Energy Bins: " t.eng.isSome = if t.eng.isSome then p!"Energy Bins: True" else p!"Energy Bins: False" := f _ _
  have e2 : McnpOutput.flagText p!"Time Bins: " t.times.isSome = if t.times.isSome then p!"Time Bins: True" else p!"Time Bins: False" := f _ _
  have e3 : McnpOutput.flagText p!"Angular Bins: " t.angBins.isSome = if t.angBins.isSome then p!"Angular Bins: True" else p!"Angular Bins: False" := f _ _
  have n1 : '\n' ∉ p!"Tally number: " ++ intStr t.number := by have := int_noNL t.number; simp [this]
  have n2 : '\n' ∉ p!"Particle: " ++ t.particle := by simp [hp]
  have n3 := flag_noNL (label := p!"Energy Bins: ") (by decide) t.eng.isSome
  have n4 := flag_noNL (label := p!"Time Bins: ") (by decide) t.times.isSome
  have n5 := flag_noNL (label := p!"Angular Bins: ") (by decide) t.angBins.isSome
  unfold McnpOutput.tallyText
  rw [← e1, ← e2, ← e3]
  simp only [List.mem_cons, List.not_mem_nil, or_false] at ht
  by_cases h5 : t.tallyType = '5'
  · simp only [h5, if_true]
    refine ⟨_, [p!"X: " ++ (t.pos.map (fun p => num p.1)).getD p!"None", p!"Y: " ++ (t.pos.map (fun p => num p.2.1)).getD p!"None",
      p!"Z: " ++ (t.pos.map (fun p => num p.2.2)).getD p!"None"], [], rfl, ?_, by simp, by simp, ?_⟩
    · rw [join_lines (by simp)]
      · rw [List.append_nil]
      · have hc : ∀ g : F × F × F → F, '\n' ∉ (Option.map (fun p => num (g p)) t.pos).getD p!"None" := by
          intro g
          cases t.pos with
          | none => simp
          | some p => exact hn _
        intro l hl
        simp only [List.cons_append, List.nil_append, List.mem_cons, List.not_mem_nil, or_false] at hl
        rcases hl with rfl | rfl | rfl | rfl | rfl | rfl | rfl
        · exact n1
        · exact n2
        · have := hc (·.1); simp [this]
        · have := hc (·.2.1); simp [this]
        · have := hc (·.2.2); simp [this]
        · exact n3
        · exact n4
    · intro _
      refine ⟨rfl, fun x y z hpos => ?_⟩
      rw [hpos]; rfl
  · by_cases h4 : t.tallyType = '4' ∨ t.tallyType = '6' ∨ t.tallyType = '8'
    · rw [if_neg h5, if_pos h4]
      refine ⟨_, [p!"Number of Cells: " ++ natStr t.cells.length], [], rfl, ?_, by simp, ?_, fun h => absurd h h5⟩
      · rw [join_lines (by simp)]
        · rw [List.append_nil]
        · intro l hl
          simp only [List.cons_append, List.nil_append, List.mem_cons, List.not_mem_nil, or_false] at hl
          rcases hl with rfl | rfl | rfl | rfl | rfl
          · exact n1
          · exact n2
          · have := nat_noNL t.cells.length; simp [this]
          · exact n3
          · exact n4
      · intro h
        exfalso
        simp only [List.mem_cons, List.not_mem_nil, or_false] at h
        rcases h with h | h <;> rw [h] at h4 <;> revert h4 <;> decide
    · have h1 : t.tallyType = '1' ∨ t.tallyType = '2' := by tauto
      rw [if_neg h5, if_neg h4, if_pos h1]
      refine ⟨_, [p!"Number of Surfaces: " ++ natStr t.surfaces.length], [McnpOutput.flagText p!"Angular Bins: " t.angBins.isSome], rfl, ?_, ?_, by simp, fun h => absurd h h5⟩
      · rw [join_lines (by simp)]
        intro l hl
        simp only [List.cons_append, List.nil_append, List.mem_cons, List.not_mem_nil, or_false] at hl
        rcases hl with rfl | rfl | rfl | rfl | rfl | rfl
        · exact n1
        · exact n2
        · have := nat_noNL t.surfaces.length; simp [this]
        · exact n3
        · exact n4
        · exact n5
      · intro h
        exfalso
        simp only [List.mem_cons, List.not_mem_nil, or_false] at h
        exact h4 h

example : McnpOutput.tallyText (fun n : Int => intStr n) { number := 4, tallyType := '4', particle := p!"neutrons", nps := .inr 1, cells := [p!"1", p!"2"], eng := some [1] } =
    some p!"Tally number: 4\nParticle: neutrons\nNumber of Cells: 2\nEnergy Bins: True\nTime Bins: False" := by decide +kernel

/-! ### C187 -/

/-- The longest of the rows has `w` entries. -/
def Width {A : Type} (data : List (List A)) (w : Nat) : Prop :=
  (∀ r ∈ data, r.length ≤ w) ∧ ∃ r ∈ data, r.length = w

/-- The row `q` of a table holds the entries of `r`, and missing values behind them up to the width `w`. -/
def Filled {A : Type} (w : Nat) (r : List A) (q : List (Option A)) : Prop :=
  q.length = w ∧ (∀ (i : Nat) x, r[i]? = some x → q[i]? = some (some x)) ∧ ∀ i : Nat, r.length ≤ i → i < w → q[i]? = some none

private theorem foldl_width (data : List (List A)) (w : Nat) (h : Width data w) : (data.map List.length).foldl max 0 = w := by
  have hge : ∀ (l : List Nat) (a : Nat), (a ≤ l.foldl max a ∧ ∀ n ∈ l, n ≤ l.foldl max a) ∧ (l.foldl max a = a ∨ l.foldl max a ∈ l) := by
    intro l
    induction l with
    | nil => simp
    | cons b l ih =>
      intro a
      obtain ⟨⟨h1, h2⟩, h3⟩ := ih (max a b)
      rw [List.foldl_cons]
      refine ⟨⟨by omega, fun n hn => ?_⟩, ?_⟩
      · rcases List.mem_cons.1 hn with rfl | hn
        · omega
        · exact h2 n hn
      · rcases h3 with h3 | h3
        · rw [h3]
          rcases Nat.le_total a b with hab | hab
          · right; rw [Nat.max_eq_right hab]; exact List.mem_cons_self
          · left; omega
        · exact .inr (List.mem_cons_of_mem _ h3)
  obtain ⟨h1, r, hr, h2⟩ := h
  obtain ⟨⟨_, h3⟩, h4⟩ := hge (data.map List.length) 0
  have h5 := h3 r.length (List.mem_map.2 ⟨r, hr, rfl⟩)
  rcases h4 with h4 | h4
  · omega
  · obtain ⟨r', hr', h6⟩ := List.mem_map.1 h4
    have := h1 r' hr'
    omega

/-- Data with a row that is not empty become a table exactly if there are as many rows as times and the longest row has as many entries as
    there are energies; short rows are filled up. All other data are returned as they are. -/
theorem C187_rows {A : Type} {data : List (List A)} {w : Nat} (hw : Width data w) (h0 : 0 < w) (times energies : List Str) :
    (data.length = times.length ∧ w = energies.length →
      ∃ rows, McnpOutput.convertDf data times energies = .table times energies rows ∧ List.Forall₂ (Filled w) data rows) ∧
    (¬ (data.length = times.length ∧ w = energies.length) → McnpOutput.convertDf data times energies = .raw data) := by
  have hne : data ≠ [] := by
    obtain ⟨_, r, hr, _⟩ := hw
    exact List.ne_nil_of_mem hr
  have hf := foldl_width data w hw
  refine ⟨fun ⟨h1, h2⟩ => ⟨data.map (fun r => r.map some ++ List.replicate (w - r.length) none), ?_, ?_⟩, fun h => ?_⟩
  · simp only [McnpOutput.convertDf, hf]
    rw [if_neg hne, if_neg (not_not.2 h2), if_neg (by omega), if_neg (not_not.2 h1)]
  · rw [List.forall₂_map_right_iff, List.forall₂_same]
    intro r hr
    have hle := hw.1 r hr
    refine ⟨by simp; omega, fun i x hx => ?_, fun i h1 h2 => ?_⟩
    · have hi : i < r.length := (List.getElem?_eq_some_iff.1 hx).1
      rw [List.getElem?_append_left (by simpa using hi), List.getElem?_map, hx]
      rfl
    · rw [List.getElem?_append_right (by simpa using h1), List.length_map, List.getElem?_replicate, if_pos (by omega)]
  · simp only [McnpOutput.convertDf, hf]
    rw [if_neg hne]
    by_cases h2 : w = energies.length
    · rw [if_neg (not_not.2 h2), if_neg (by omega), if_pos (fun h1 => h ⟨h1, h2⟩)]
    · rw [if_pos h2]

/-- Data that fit the labels become a table with these labels and exactly these values; data with another number of rows, or a row that is
    too long, or only rows that are too short, are returned as they are.
    Missing: no rows at all (`C187_empty_violated`) and rows of different lengths (`C187_short_violated`). -/
theorem C187_convert_partial {A : Type} {data : List (List A)} (hne : ∃ r ∈ data, r ≠ []) (times energies : List Str) :
    (data.length = times.length → (∀ r ∈ data, r.length = energies.length) →
      McnpOutput.convertDf data times energies = .table times energies (data.map (·.map some))) ∧
    (data.length ≠ times.length → McnpOutput.convertDf data times energies = .raw data) ∧
    ((∃ r ∈ data, energies.length < r.length) → McnpOutput.convertDf data times energies = .raw data) ∧
    ((∀ r ∈ data, r.length < energies.length) → McnpOutput.convertDf data times energies = .raw data) := by
  have hw : ∃ w, Width data w := by
    obtain ⟨r, hr, _⟩ := hne
    clear * - hr
    induction data generalizing r with
    | nil => simp at hr
    | cons a l ih =>
      by_cases hl : l = []
      · subst hl
        exact ⟨a.length, by simp, a, by simp, rfl⟩
      · obtain ⟨b, l', rfl⟩ := List.exists_cons_of_ne_nil hl
        obtain ⟨w, h1, r', h2, h3⟩ := ih b (by simp)
        rcases Nat.le_total a.length w with h | h
        · refine ⟨w, fun q hq => ?_, r', List.mem_cons_of_mem _ h2, h3⟩
          rcases List.mem_cons.1 hq with rfl | hq
          · exact h
          · exact h1 q hq
        · refine ⟨a.length, fun q hq => ?_, a, List.mem_cons_self, rfl⟩
          rcases List.mem_cons.1 hq with rfl | hq
          · exact Nat.le_refl _
          · exact Nat.le_trans (h1 q hq) h
  obtain ⟨w, hw⟩ := hw
  have h0 : 0 < w := by
    obtain ⟨r, hr, hn⟩ := hne
    have h1 := hw.1 r hr
    have h2 := List.length_pos_iff.2 hn
    omega
  obtain ⟨h1, h2⟩ := C187_rows hw h0 times energies
  obtain ⟨hle, q, hq, hqw⟩ := hw
  refine ⟨fun ha hb => ?_, fun h => h2 (fun x => h x.1), ?_, fun h => h2 (fun x => ?_)⟩
  · have hwe : w = energies.length := by rw [← hqw]; exact hb q hq
    obtain ⟨rows, h3, h4⟩ := h1 ⟨ha, hwe⟩
    rw [h3]
    congr 1
    clear h3 h1 h2 ha hqw hq hne
    induction h4 with
    | nil => rfl
    | @cons r p l ps hrp _ ih =>
      rw [List.map_cons, ih (fun x hx => hle x (List.mem_cons_of_mem _ hx)) (fun x hx => hb x (List.mem_cons_of_mem _ hx))]
      congr 1
      have hl : r.length = w := by rw [hwe]; exact hb r List.mem_cons_self
      apply List.ext_getElem?
      intro i
      rw [List.getElem?_map]
      cases hi : r[i]? with
      | some x => rw [hrp.2.1 i x hi]; rfl
      | none =>
        rw [List.getElem?_eq_none_iff] at hi
        rw [List.getElem?_eq_none (by rw [hrp.1]; omega)]
        rfl
  · rintro ⟨r, hr, hlt⟩
    refine h2 (fun x => ?_)
    have := hle r hr
    omega
  · have := h q hq
    omega

/-- C187 is violated when there are no rows at all: for any times and energies a table of missing values is returned. -/
theorem C187_empty_violated {A : Type} (times energies : List Str) (_ht : times ≠ []) :
    ∃ rows, McnpOutput.convertDf ([] : List (List A)) times energies = .table times energies rows ∧ rows.length = times.length ∧
      ∀ r ∈ rows, r.length = energies.length ∧ ∀ x ∈ r, x = none := by
  refine ⟨times.map (fun _ => energies.map (fun _ => none)), rfl, by simp, fun r hr => ?_⟩
  obtain ⟨_, _, rfl⟩ := List.mem_map.1 hr
  refine ⟨by simp, fun x hx => ?_⟩
  obtain ⟨_, _, rfl⟩ := List.mem_map.1 hx
  rfl

/-- C187 is violated by rows that are too short, if only one row has the right length: they are filled with missing values. -/
theorem C187_short_violated {A : Type} {data : List (List A)} {times energies : List Str} (hl : data.length = times.length)
    (hle : ∀ r ∈ data, r.length ≤ energies.length) (hone : ∃ r ∈ data, r.length = energies.length) {r : List A} (hr : r ∈ data)
    (hs : r.length < energies.length) :
    ∃ rows, McnpOutput.convertDf data times energies = .table times energies rows ∧ ∃ q ∈ rows, none ∈ q := by
  obtain ⟨rows, h1, h2⟩ := (C187_rows (w := energies.length) ⟨hle, hone⟩ (by omega) times energies).1 ⟨hl, rfl⟩
  refine ⟨rows, h1, ?_⟩
  clear h1 hl hle hone
  induction h2 with
  | nil => simp at hr
  | @cons a p l ps hap _ ih =>
    rcases List.mem_cons.1 hr with rfl | hr
    · exact ⟨p, List.mem_cons_self, List.mem_of_getElem? (hap.2.2 r.length (Nat.le_refl _) hs)⟩
    · obtain ⟨q, hq, hn⟩ := ih hr
      exact ⟨q, List.mem_cons_of_mem _ hq, hn⟩

example : McnpOutput.convertDf [[1, 2], [3, 4]] [p!"t1", p!"t2"] [p!"e1", p!"e2"] =
    .table [p!"t1", p!"t2"] [p!"e1", p!"e2"] [[some 1, some 2], [some 3, some 4]] := by decide +kernel
example : McnpOutput.convertDf [[1, 2]] [p!"t1", p!"t2"] [p!"e1", p!"e2"] = .raw [[1, 2]] := by decide +kernel
example : McnpOutput.convertDf [[1, 2], [3]] [p!"t1", p!"t2"] [p!"e1", p!"e2"] =
    .table [p!"t1", p!"t2"] [p!"e1", p!"e2"] [[some 1, some 2], [some 3, none]] := by decide +kernel
example : McnpOutput.convertDf ([] : List (List Nat)) [p!"t1"] [p!"e1", p!"e2"] = .table [p!"t1"] [p!"e1", p!"e2"] [[none, none]] := by
  decide +kernel

end Props
