import Verif.Spec.Decor
import Verif.Proof.CstDecor
import Verif.Props.Join
import Verif.Props.CstShape

/-!
# C77: emphasis and indicators do not matter for the structure
-/

namespace Sneturfahi.Props

open Spec

/-- **C77.** Tokens without `bu`, `zei`, `zo`, `zoi`, `lo'u`, `lu` and `fu'e`, not ending in `ba'e`, are a text exactly if they
are one without any `ba'e` and indicators. -/
theorem C77_text (toks : List Token) (ht : ∀ t ∈ toks, t.selmaho ∉ taking) (hlast : ∀ t, toks.getLast? = some t → t.selmaho ≠ .Bahe) :
    IsText toks ↔ IsText (undecorated toks) := by
  rw [isText_iff, isText_iff]
  obtain ⟨o, o', h1, h2, h⟩ := decor_text ht hlast
  have hnil : ∀ {r r'}, Decorated r r' → (r = [] ↔ r' = []) := by
    intro r r' h
    cases h with
    | nil => simp
    | cons => simp
  constructor
  · rintro ⟨vs, hv⟩
    have hu := h2.unique _ hv
    rcases h with ⟨_, rfl⟩ | ⟨_, rfl⟩ | ⟨r, r', v, v', rfl, rfl, hd, _⟩
    · cases hu
    · cases hu
    · cases hu
      rw [(hnil hd).mpr rfl] at h1
      exact ⟨_, h1⟩
  · rintro ⟨vs, hv⟩
    have hu := h1.unique _ hv
    rcases h with ⟨rfl, _⟩ | ⟨rfl, _⟩ | ⟨r, r', v, v', rfl, rfl, hd, _⟩
    · cases hu
    · cases hu
    · cases hu
      rw [(hnil hd).mp rfl] at h2
      exact ⟨_, h2⟩

/-- And the two trees are the same but for the added words. -/
theorem C77_tree (p p' : Profile) (s s' : Toks) (root root' : Val) (ht : ∀ t ∈ s.list, t.selmaho ∉ taking)
    (hlast : ∀ t, s.list.getLast? = some t → t.selmaho ≠ .Bahe) (hs : s'.list = undecorated s.list)
    (h : parseCst p s = .val (.ok root)) (h' : parseCst p' s' = .val (.ok root')) : bare root = bare root' := by
  have h := (C66_meaning p s root).mp h
  have h' := (C66_meaning p' s' root').mp h'
  rw [hs] at h'
  obtain ⟨o, o', h1, h2, hr⟩ := decor_text ht hlast
  have hu := h1.unique _ h'
  have hu' := h2.unique _ h
  rcases hr with ⟨rfl, _⟩ | ⟨rfl, _⟩ | ⟨r, r', v, v', rfl, rfl, _, hb⟩
  · cases hu
  · cases hu
  · cases hu
    cases hu'
    exact hb.symm

/-- Words, `ba'e` and indicators may so be added anywhere: adding one to a text gives a text. -/
theorem C77_add (a b : List Token) (x : Token) (hx : x.selmaho ∈ decorating) (ht : ∀ t ∈ a ++ b, t.selmaho ∉ taking)
    (hlast : ∀ t, (a ++ b).getLast? = some t → t.selmaho ≠ .Bahe) (hb : x.selmaho = .Bahe → b ≠ []) :
    IsText (a ++ x :: b) ↔ IsText (a ++ b) := by
  have hx2 : x.selmaho ∉ taking := by
    generalize x.selmaho = y at hx
    revert hx; cases y <;> decide
  have hu : undecorated (a ++ x :: b) = undecorated (a ++ b) := by
    unfold undecorated
    rw [List.filter_append, List.filter_append, List.filter_cons_of_neg]
    simpa using hx
  have hl : ∀ t, (a ++ x :: b).getLast? = some t → t.selmaho ≠ .Bahe := by
    intro t h
    cases b with
    | nil =>
      simp at h
      subst h
      exact fun he => hb he rfl
    | cons y b =>
      refine hlast t ?_
      simpa [List.getLast?_append, List.getLast?_cons_cons] using h
  rw [C77_text _ ?_ hl, C77_text _ ht hlast, hu]
  intro t h
  rcases List.mem_append.mp h with h | h
  · exact ht t (by simp [h])
  · rcases List.mem_cons.mp h with rfl | h
    · exact hx2
    · exact ht t (by simp [h])

/-- `ui mi ba'e klama nai .ui le ui zarci` and `mi klama le zarci`. -/
example : IsText (toks [.Ui, .Koha, .Bahe, .Gismu, .Nai, .Ui, .Le, .Ui, .Gismu]) ∧ IsText (toks [.Koha, .Gismu, .Le, .Gismu]) := by
  refine ⟨?_, ?_⟩ <;> decide +kernel

example : undecorated (toks [.Ui, .Koha, .Bahe, .Gismu, .Nai]) =
    (toks [.Ui, .Koha, .Bahe, .Gismu, .Nai]).filter (fun t => t.selmaho = .Koha ∨ t.selmaho = .Gismu) := by decide +kernel

/-- What the conditions are for: a quoted or delimiting indicator is not one, after a quoted word none is allowed, `ba'e` goes with no
quoting word, and a last `ba'e` emphasises nothing. -/
theorem C77_conditions :
    (IsText (toks [.Ui, .Bu]) ∧ ¬ IsText (toks [.Bu])) ∧
    (IsText (toks [.Koha, .Zei, .Ui]) ∧ ¬ IsText (toks [.Koha, .Zei])) ∧
    (¬ IsText (toks [.Zo, .Koha, .Ui]) ∧ IsText (toks [.Zo, .Koha])) ∧
    (¬ IsText (toks [.Bahe, .Zoi, .Koha, .Gismu, .Koha]) ∧ IsText (toks [.Zoi, .Koha, .Gismu, .Koha])) ∧
    (¬ IsText (toks [.Bahe, .Lohu, .Lehu]) ∧ IsText (toks [.Lohu, .Lehu])) ∧
    (¬ IsText (toks [.Bahe, .Lu, .Koha]) ∧ IsText (toks [.Lu, .Koha])) ∧
    (IsText (toks [.Fuhe, .Ui, .Koha]) ∧ ¬ IsText (toks [.Fuhe, .Koha])) ∧
    (¬ IsText (toks [.Koha, .Bahe]) ∧ IsText (toks [.Koha])) := by
  refine ⟨⟨?_, ?_⟩, ⟨?_, ?_⟩, ⟨?_, ?_⟩, ⟨?_, ?_⟩, ⟨?_, ?_⟩, ⟨?_, ?_⟩, ⟨?_, ?_⟩, ⟨?_, ?_⟩⟩ <;> decide +kernel

end Sneturfahi.Props
