/- Lemmas about insertion ordered dictionaries. -/
import Verif.Py.Base

namespace Py.Dict
variable {K V : Type*} [DecidableEq K]

theorem keys_set (d : Dict K V) (k : K) (v : V) :
    (d.set k v).keys = if k ∈ d.keys then d.keys else d.keys ++ [k] := by
  have hany : (d.any (fun e => decide (e.1 = k)) = true) ↔ k ∈ d.keys := by
    simp [keys]
  by_cases h : k ∈ d.keys
  · rw [if_pos h, set, if_pos (hany.2 h)]
    simp only [keys, List.map_map]
    apply List.map_congr_left
    intro e _
    simp only [Function.comp]
    split
    · next h => exact h.symm
    · rfl
  · rw [if_neg h, set, if_neg (fun h' => h (hany.1 h'))]
    simp [keys]

theorem mem_keys_set {d : Dict K V} {k k' : K} {v : V} : k' ∈ (d.set k v).keys ↔ k' = k ∨ k' ∈ d.keys := by
  rw [keys_set]
  split
  · next h =>
    constructor
    · exact Or.inr
    · rintro (rfl | h') <;> assumption
  · simp [or_comm]

theorem nodup_keys_set {d : Dict K V} {k : K} {v : V} (h : d.keys.Nodup) : (d.set k v).keys.Nodup := by
  rw [keys_set]
  split
  · exact h
  · next hk =>
    rw [List.nodup_append]
    refine ⟨h, by simp, ?_⟩
    intro a ha b hb
    simp at hb
    subst hb
    intro hab
    exact hk (hab ▸ ha)

theorem get_set (d : Dict K V) (k k' : K) (v : V) :
    (d.set k v).get k' = if k' = k then some v else d.get k' := by
  unfold set get
  by_cases hany : d.any (fun e => decide (e.1 = k)) = true
  · rw [if_pos hany]
    induction d with
    | nil => simp at hany
    | cons e es ih =>
      rw [List.map_cons, List.find?_cons, List.find?_cons]
      by_cases he : e.1 = k
      · simp only [he, if_true]
        by_cases hk : k' = k
        · simp [hk]
        · have h1 : decide (k = k') = false := by simp [Ne.symm hk]
          simp only [h1, if_neg hk]
          have key : ∀ l : List (K × V),
              Option.map (fun x => x.2) (l.map (fun e => if e.1 = k then (k, v) else e) |>.find? (fun e => decide (e.1 = k'))) =
              Option.map (fun x => x.2) (l.find? (fun e => decide (e.1 = k'))) := by
            intro l
            induction l with
            | nil => rfl
            | cons a as iha =>
              rw [List.map_cons, List.find?_cons, List.find?_cons]
              by_cases ha : a.1 = k
              · simp only [ha, if_true, h1]; exact iha
              · simp only [ha, if_false]
                split
                · rfl
                · exact iha
          exact key es
      · simp only [he, if_false]
        have hany' : es.any (fun e => decide (e.1 = k)) = true := by simpa [he] using hany
        by_cases hk : e.1 = k'
        · have : k' ≠ k := by rw [← hk]; exact he
          simp [hk, this]
        · simp only [hk, decide_false]
          exact ih hany'
  · rw [if_neg hany]
    have hno : ∀ e ∈ d, e.1 ≠ k := by
      intro e he h
      exact hany (List.any_eq_true.2 ⟨e, he, by simpa using h⟩)
    rw [List.find?_append]
    by_cases hk : k' = k
    · subst hk
      have : d.find? (fun e => decide (e.1 = k')) = none := by
        rw [List.find?_eq_none]; intro e he; simpa using hno e he
      simp [this]
    · rw [if_neg hk]
      have : List.find? (fun e : K × V => decide (e.1 = k')) [(k, v)] = none := by
        simp [Ne.symm hk]
      rw [this, Option.or_none]

theorem get_set_self (d : Dict K V) (k : K) (v : V) : (d.set k v).get k = some v := by simp [get_set]

theorem get_set_ne (d : Dict K V) {k k' : K} (v : V) (h : k' ≠ k) : (d.set k v).get k' = d.get k' := by
  simp [get_set, h]

theorem get_isSome_iff {d : Dict K V} {k : K} : (d.get k).isSome ↔ k ∈ d.keys := by
  simp [get, keys]

theorem get_eq_none_iff {d : Dict K V} {k : K} : d.get k = none ↔ k ∉ d.keys := by
  rw [← get_isSome_iff]; cases d.get k <;> simp

/-- Value of a key after a sequence of assignments: the last assignment to it. -/
theorem get_foldl_set (es : List (K × V)) (d : Dict K V) (k : K) :
    (es.foldl (fun d e => d.set e.1 e.2) d).get k =
      ((es.reverse.find? (fun e => decide (e.1 = k))).map (·.2)).or (d.get k) := by
  induction es generalizing d with
  | nil => rfl
  | cons e es ih =>
    rw [List.foldl_cons, ih, List.reverse_cons, List.find?_append, get_set]
    cases h : es.reverse.find? (fun e => decide (e.1 = k)) with
    | some x => simp
    | none =>
      by_cases hk : e.1 = k
      · simp [hk]
      · simp [hk, Ne.symm hk]

theorem mem_keys_foldl_set (es : List (K × V)) (d : Dict K V) (k : K) :
    k ∈ (es.foldl (fun d e => d.set e.1 e.2) d).keys ↔ k ∈ d.keys ∨ ∃ e ∈ es, e.1 = k := by
  induction es generalizing d with
  | nil => simp
  | cons e es ih =>
    rw [List.foldl_cons, ih, mem_keys_set]
    simp only [List.mem_cons]
    constructor
    · rintro ((h | h) | ⟨x, hx, h⟩)
      · exact Or.inr ⟨e, Or.inl rfl, h.symm⟩
      · exact Or.inl h
      · exact Or.inr ⟨x, Or.inr hx, h⟩
    · rintro (h | ⟨x, hx | hx, h⟩)
      · exact Or.inl (Or.inr h)
      · subst hx; exact Or.inl (Or.inl h.symm)
      · exact Or.inr ⟨x, hx, h⟩

theorem nodup_keys_foldl_set (es : List (K × V)) (d : Dict K V) (h : d.keys.Nodup) :
    (es.foldl (fun d e => d.set e.1 e.2) d).keys.Nodup := by
  induction es generalizing d with
  | nil => exact h
  | cons e es ih => exact ih _ (nodup_keys_set h)

/-- A successful reverse search, as a decomposition around the last hit. -/
theorem find?_reverse_eq_some {α : Type*} {p : α → Bool} {l : List α} {x : α} :
    l.reverse.find? p = some x ↔ ∃ a b, l = a ++ x :: b ∧ p x = true ∧ ∀ y ∈ b, p y = false := by
  rw [List.find?_eq_some_iff_append]
  constructor
  · rintro ⟨h, as, bs, he, hn⟩
    refine ⟨bs.reverse, as.reverse, ?_, h, ?_⟩
    · have := congrArg List.reverse he
      simpa using this
    · intro y hy
      have := hn y (by simpa using hy)
      simpa using this
  · rintro ⟨a, b, he, h, hn⟩
    refine ⟨h, b.reverse, a.reverse, by simp [he], ?_⟩
    intro y hy
    simpa using hn y (by simpa using hy)

/-- A dictionary filled from a list of lines: the last line that assigns to the key decides. -/
theorem get_foldl_filterMap {α : Type*} (g : α → Option (K × V)) (ls : List α) (k : K) (v : V) :
    ((ls.filterMap g).foldl (fun (d : Dict K V) e => d.set e.1 e.2) ([] : Dict K V)).get k = some v ↔
      ∃ a l b, ls = a ++ l :: b ∧ g l = some (k, v) ∧ ∀ l' ∈ b, ∀ v', g l' ≠ some (k, v') := by
  rw [get_foldl_set]
  simp only [get, List.find?_nil, Option.map_none, Option.or_none, Option.map_eq_some_iff, Prod.exists, exists_eq_right]
  constructor
  · rintro ⟨k', h⟩
    rw [find?_reverse_eq_some] at h
    obtain ⟨a, b, hab, hk, hn⟩ := h
    simp at hk
    subst hk
    obtain ⟨a', r, h1, h2, h3⟩ := List.filterMap_eq_append_iff.1 hab
    obtain ⟨skip, l, rest, h4, h5, h6, h7⟩ := List.filterMap_eq_cons_iff.1 h3
    refine ⟨a' ++ skip, l, rest, by rw [h1, h4]; simp, h6, ?_⟩
    intro l' hl' v' hg
    have : (k', v') ∈ b := by rw [← h7, List.mem_filterMap]; exact ⟨l', hl', hg⟩
    have := hn _ this
    simp at this
  · rintro ⟨a, l, b, rfl, hg, hn⟩
    refine ⟨k, ?_⟩
    rw [find?_reverse_eq_some]
    refine ⟨a.filterMap g, b.filterMap g, by simp [hg], by simp, ?_⟩
    rintro ⟨k', v'⟩ hy
    rw [List.mem_filterMap] at hy
    obtain ⟨l', hl', hg'⟩ := hy
    by_contra hk
    simp at hk
    subst hk
    exact hn l' hl' v' hg'

theorem mem_keys_foldl_filterMap {α : Type*} (g : α → Option (K × V)) (ls : List α) (k : K) :
    k ∈ ((ls.filterMap g).foldl (fun (d : Dict K V) e => d.set e.1 e.2) ([] : Dict K V)).keys ↔ ∃ l ∈ ls, ∃ v, g l = some (k, v) := by
  rw [mem_keys_foldl_set]
  simp only [keys, List.map_nil, List.not_mem_nil, false_or, List.mem_filterMap]
  constructor
  · rintro ⟨⟨k', v⟩, ⟨l, hl, hg⟩, rfl⟩; exact ⟨l, hl, v, hg⟩
  · rintro ⟨l, hl, v, hg⟩; exact ⟨(k, v), ⟨l, hl, hg⟩, rfl⟩

end Py.Dict
