/-
C301: the order of the entries of a configuration.
-/
import Verif.Props.R2sCell
import Mathlib.Data.List.Perm.Basic

set_option linter.unusedSectionVars false

namespace Props
open Py R2sCell
variable {F : Type}

private theorem get_mem {V : Type} {d : List (Str × V)} (hn : (d.map (·.1)).Nodup) (k : Str) (v : V) :
    Dict.get d k = some v ↔ (k, v) ∈ d := by
  induction d with
  | nil => simp [Dict.get]
  | cons e d ih =>
    obtain ⟨a, b⟩ := e
    rw [List.map_cons, List.nodup_cons] at hn
    have ih := ih hn.2
    unfold Dict.get at ih ⊢
    rw [List.find?_cons]
    by_cases h : a = k
    · subst h
      simp only [decide_true, Option.map_some, Option.some.injEq, List.mem_cons, Prod.mk.injEq, true_and]
      constructor
      · rintro rfl; exact .inl rfl
      · rintro (rfl | h)
        · rfl
        · exact absurd (List.mem_map.2 ⟨_, h, rfl⟩) hn.1
    · simp only [h, decide_false, List.mem_cons, Prod.mk.injEq]
      rw [ih]
      constructor
      · exact .inr
      · rintro (⟨rfl, -⟩ | h')
        · exact absurd rfl h
        · exact h'

private theorem attributes_inj {a b : Inputs F} (h : attributes a = attributes b) : a = b := by
  cases a; cases b
  simp only [attributes, List.cons.injEq, Prod.mk.injEq, Option.some.injEq, true_and, and_true] at h
  obtain ⟨rfl, rfl, rfl, rfl, rfl, rfl, rfl, rfl, rfl, rfl⟩ := h
  rfl

/-- C301: a configuration with its entries in another order is the same configuration, or is refused in the same way. -/
theorem C301_order {d d' : List (Str × Json F)} (hp : d.Perm d') (hn : (d.map (·.1)).Nodup) :
    fromConfig (.obj d) = fromConfig (.obj d') := by
  have hn' : (d'.map (·.1)).Nodup := (hp.map (·.1)).nodup_iff.1 hn
  by_cases hk : ∀ e ∈ d, e.1 ∈ (knownKeys F).map (·.1)
  · obtain ⟨a, h1, h2⟩ := C106_values_partial d hn hk
    obtain ⟨b, h3, h4⟩ := C106_values_partial d' hn' (fun e he => hk e (hp.mem_iff.2 he))
    have hget : ∀ k, Dict.get d k = Dict.get d' k := by
      intro k
      apply Option.ext
      intro v
      rw [get_mem hn, get_mem hn', hp.mem_iff]
    simp only [hget] at h2
    rw [h1, h3, attributes_inj (h2.trans h4.symm)]
  · push Not at hk
    obtain ⟨e, he, hne⟩ := hk
    rw [C106_unknown d ⟨e, he, hne⟩, C106_unknown d' ⟨e, hp.mem_iff.1 he, hne⟩]

/-- C301: a run with a configuration file whose entries are in another order is the same run: the same files are left and the same
    exception is raised, if there is one. -/
theorem C301_run [LinearOrder F] {flt : Str → Option F} {minusOne : F} {enum : List Str → List Str} {json : Str → Except Err (Json F)}
    {enumI : List Int → List Int} {p p' : Str} {fs : FS} {c c' : Str} {d d' : List (Str × Json F)} (h0 : p ≠ []) (h0' : p' ≠ [])
    (hc : fs.node p = some (.file c)) (hc' : fs.node p' = some (.file c')) (hj : json (univNL c) = .ok (.obj d))
    (hj' : json (univNL c') = .ok (.obj d')) (hp : d.Perm d') (hn : (d.map (·.1)).Nodup) :
    main flt minusOne enum json enumI p fs = main flt minusOne enum json enumI p' fs := by
  have key : readConfig json p fs = readConfig json p' fs := by
    rw [(C106_file json p fs h0).2 c hc, (C106_file json p' fs h0').2 c' hc', hj, hj']
    dsimp only
    rw [C301_order hp hn]
  unfold main
  rw [PyM.bind_run, PyM.bind_run, key]

example : [(p!"mc_code", Json.str p!"MCNP"), (p!"cells", (Json.null : Json ℚ))].Perm [(p!"cells", .null), (p!"mc_code", .str p!"MCNP")] :=
  List.Perm.swap _ _ _
example : ([(p!"mc_code", Json.str p!"MCNP"), (p!"cells", (Json.null : Json ℚ))].map (·.1)).Nodup := by decide
example : (fromConfig (.obj [(p!"cells", (Json.int 3 : Json Int)), (p!"mc_code", .str p!"MCNP")])).toOption.map (fun i => match i.cells with
    | .int n => n
    | _ => 0) = some 3 := by decide +kernel

end Props
