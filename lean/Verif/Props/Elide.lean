import Verif.Spec.Elide
import Verif.Proof.ElideCert
import Verif.Props.Sentence
import Verif.Props.CstShape

/-!
# C87: closing words can be left out at the end
-/

namespace Sneturfahi.Props

open Spec Elide

theorem elide_tree {k : Tabs} {t : Token} {P : List Token → Prop} (hk : Cert k t P) (hg : k.gone .Text = false) {A : List Token} (hA : P A)
    {p : Profile} {ptr : Nat} {root : Val} (h : parseCst p ⟨ptr, A ++ [t]⟩ = .val (.ok root)) :
    ∃ root', (∀ p' ptr', parseCst p' ⟨ptr', A⟩ = .val (.ok root')) ∧ Dropped t root root' := by
  obtain ⟨o, ho⟩ := peg_total .Text A
  obtain ⟨vs, rfl, hv⟩ := dropLast hk hg hA ((C66_meaning _ _ _).mp h) ho
  cases hv with
  | tail h => cases h
  | head hv => exact ⟨_, fun p' ptr' => (C66_meaning p' ⟨ptr', A⟩ _).mpr ho, hv⟩

theorem elide_text {A B : List Token} {R : Val → Val → Prop}
    (h : ∀ p ptr root, parseCst p ⟨ptr, B⟩ = .val (.ok root) →
      ∃ root', (∀ p' ptr', parseCst p' ⟨ptr', A⟩ = .val (.ok root')) ∧ R root root') (hB : IsText B) : IsText A := by
  obtain ⟨root, hr⟩ := hB .debug 0
  obtain ⟨root', h', _⟩ := h _ _ _ hr
  exact fun p ptr => ⟨root', h' p ptr⟩

theorem free_of {A : List Token} (h : Unquoted A) : Free quotingWords A := ⟨h.plain, h.last⟩

/-- **C87.** If a text ends with a closing word (`kei`, `ku'o`, `ge'u`, `vau`, `tu'u`, `nu'u`, `be'o`, `me'u`, ...), then the tokens
without that word are a text too, and the tree is the same but for the optional part that the word was: it is missing. -/
theorem C87_tree (p : Profile) (ptr : Nat) (A : List Token) (t : Token) (root : Val) (ht : t.selmaho ∈ closing) (hA : Unquoted A)
    (h : parseCst p ⟨ptr, A ++ [t]⟩ = .val (.ok root)) :
    ∃ root', (∀ p' ptr', parseCst p' ⟨ptr', A⟩ = .val (.ok root')) ∧ Dropped t root root' :=
  elide_tree (cert1 ht) rfl (free_of hA) h

/-- In short. -/
theorem C87_closer (A : List Token) (t : Token) (ht : t.selmaho ∈ closing) (hA : Unquoted A) (h : IsText (A ++ [t])) : IsText A :=
  elide_text (fun p ptr root => C87_tree p ptr A t root ht hA) h

/-- **C87.** The same of `ku`, except after `na`. -/
theorem C87_ku_tree (p : Profile) (ptr : Nat) (A : List Token) (t : Token) (root : Val) (ht : t.selmaho = .Ku) (hA : Unquoted A)
    (hn : ¬ EndsWithNa A) (h : parseCst p ⟨ptr, A ++ [t]⟩ = .val (.ok root)) :
    ∃ root', (∀ p' ptr', parseCst p' ⟨ptr', A⟩ = .val (.ok root')) ∧ Dropped t root root' :=
  elide_tree (cert2 ht) rfl ⟨free_of hA, hn⟩ h

theorem C87_ku (A : List Token) (t : Token) (ht : t.selmaho = .Ku) (hA : Unquoted A) (hn : ¬ EndsWithNa A) (h : IsText (A ++ [t])) :
    IsText A :=
  elide_text (fun p ptr root => C87_ku_tree p ptr A t root ht hA hn) h

/-- **C87.** The same of `ke'e`, if there are no operators (`vu'u`, `na'u`, `ma'o`). -/
theorem C87_kehe_tree (p : Profile) (ptr : Nat) (A : List Token) (t : Token) (root : Val) (ht : t.selmaho = .Kehe) (hA : Unquoted A)
    (hn : ∀ u ∈ A, u.selmaho ∉ [Selmaho.Vuhu, .Nahu, .Maho]) (h : parseCst p ⟨ptr, A ++ [t]⟩ = .val (.ok root)) :
    ∃ root', (∀ p' ptr', parseCst p' ⟨ptr', A⟩ = .val (.ok root')) ∧ Dropped t root root' := by
  refine elide_tree (cert3 ht) rfl ⟨fun u hu hc => ?_, hA.last⟩ h
  rcases List.mem_append.mp hc with hc | hc
  · exact hn u hu hc
  · exact hA.plain u hu hc

theorem C87_kehe (A : List Token) (t : Token) (ht : t.selmaho = .Kehe) (hA : Unquoted A)
    (hn : ∀ u ∈ A, u.selmaho ∉ [Selmaho.Vuhu, .Nahu, .Maho]) (h : IsText (A ++ [t])) : IsText A :=
  elide_text (fun p ptr root => C87_kehe_tree p ptr A t root ht hA hn) h

theorem unquoted_more {A : List Token} {t : Token} (hA : Unquoted A) (ht : t.selmaho ∈ Selmaho.Ku :: Selmaho.Kehe :: closing) : Unquoted (A ++ [t]) := by
  constructor
  · intro u hu
    rcases List.mem_append.mp hu with hu | hu
    · exact hA.plain u hu
    · rw [List.mem_singleton.mp hu]
      revert ht
      generalize t.selmaho = x
      cases x <;> decide
  · intro u hu
    rw [List.getLast?_concat] at hu
    cases hu
    revert ht
    generalize t.selmaho = x
    cases x <;> decide

theorem not_na_of {A : List Token} {t : Token} (hl : A.getLast? = some t) (ht : t.selmaho ∉ Selmaho.Na :: Selmaho.Fuhe :: decorating) :
    ¬ EndsWithNa A := by
  rintro ⟨b, n, us, rfl, hn, hu⟩
  have h2 : t = n ∨ t ∈ us := by
    have := List.mem_of_getLast? (l := n :: us) (a := t) (by
      rw [List.getLast?_append] at hl
      cases hx : (n :: us).getLast? with
      | none => simp at hx
      | some v => rw [hx] at hl; exact hl)
    simpa using this
  rcases h2 with rfl | h2
  · rw [hn] at ht; exact ht (by decide)
  · exact ht (List.mem_cons_of_mem _ (hu t h2))

theorem not_na {A : List Token} {t : Token} (ht : t.selmaho ∈ Selmaho.Ku :: Selmaho.Kehe :: closing) : ¬ EndsWithNa (A ++ [t]) := by
  refine not_na_of List.getLast?_concat ?_
  revert ht
  generalize t.selmaho = x
  cases x <;> decide

/-- **C87.** Any number of closing words at the end can be left out, as many as one likes. -/
theorem C87_closers (A ts : List Token) (hA : Unquoted A) (ht : ∀ t ∈ ts, t.selmaho ∈ Selmaho.Ku :: Selmaho.Kehe :: closing)
    (hku : ∀ t ∈ ts, t.selmaho = .Ku → ¬ EndsWithNa A)
    (hkehe : ∀ t ∈ ts, t.selmaho = .Kehe → ∀ u ∈ A, u.selmaho ∉ [Selmaho.Vuhu, .Nahu, .Maho])
    (h : IsText (A ++ ts)) : IsText A := by
  induction ts generalizing A with
  | nil => simpa using h
  | cons t ts ih =>
    have ht0 := ht t (by simp)
    have h1 : IsText (A ++ [t]) := by
      refine ih (A ++ [t]) (unquoted_more hA ht0) (fun u hu => ht u (by simp [hu])) (fun _ _ _ => not_na ht0) ?_ (by simpa using h)
      intro u hu hk v hv
      rcases List.mem_append.mp hv with hv | hv
      · exact hkehe u (by simp [hu]) hk v hv
      · rw [List.mem_singleton.mp hv]
        revert ht0
        generalize t.selmaho = x
        cases x <;> decide
    simp only [List.mem_cons] at ht0
    rcases ht0 with hk | hk | hk
    · exact C87_ku A t hk hA (hku t (by simp) hk) h1
    · exact C87_kehe A t hk hA (hkehe t (by simp) hk) h1
    · exact C87_closer A t hk hA h1

theorem piece_unquoted {A : List Token} (h : Piece A) : Unquoted A := by
  refine ⟨fun t ht hc => ?_, h.last⟩
  have := h.plain t ht
  revert this hc
  generalize t.selmaho = x
  cases x <;> decide

theorem piece_more {A : List Token} (h : Piece A) {ts : List Token} (ht : ∀ t ∈ ts, t.selmaho ∈ Selmaho.Ku :: Selmaho.Kehe :: closing) :
    Piece (A ++ ts) := by
  have hx : ∀ x : Selmaho, x ∈ Selmaho.Ku :: Selmaho.Kehe :: closing → x ∉ wrapping ∧ x ≠ .Faho ∧ x ≠ .Niho ∧ x ≠ .Bahe := by
    intro x; cases x <;> decide
  constructor
  · intro t h1
    rcases List.mem_append.mp h1 with h1 | h1
    · exact h.plain t h1
    · exact (hx _ (ht t h1)).1
  · intro t h1
    rcases List.mem_append.mp h1 with h1 | h1
    · exact h.open_ t h1
    · exact (hx _ (ht t h1)).2.1
  · intro t h1
    rcases List.mem_append.mp h1 with h1 | h1
    · exact h.one t h1
    · exact (hx _ (ht t h1)).2.2.1
  · intro t h1
    rw [List.getLast?_append] at h1
    cases hl : ts.getLast? with
    | none => rw [hl] at h1; exact h.last t (by simpa using h1)
    | some u =>
      rw [hl] at h1
      simp only [Option.some_or, Option.some.injEq] at h1
      subst h1
      exact (hx _ (ht u (List.mem_of_getLast? hl))).2.2.2

/-- **C87.** And so they can be before a new sentence ... -/
theorem C87_sentence (A ts B : List Token) (i : Token) (hA : Piece A) (hAi : ∀ t ∈ A, t.selmaho ≠ .I) (hi : i.selmaho = .I) (hB : Starts B)
    (ht : ∀ t ∈ ts, t.selmaho ∈ Selmaho.Ku :: Selmaho.Kehe :: closing) (hku : ∀ t ∈ ts, t.selmaho = .Ku → ¬ EndsWithNa A)
    (hkehe : ∀ t ∈ ts, t.selmaho = .Kehe → ∀ u ∈ A, u.selmaho ∉ [Selmaho.Vuhu, .Nahu, .Maho])
    (h : IsText (A ++ ts ++ i :: B)) : IsText (A ++ i :: B) := by
  have hi' : ∀ t ∈ A ++ ts, t.selmaho ≠ .I := by
    intro t h1
    rcases List.mem_append.mp h1 with h1 | h1
    · exact hAi t h1
    · have := ht t h1
      revert this
      generalize t.selmaho = x
      cases x <;> decide
  have h1 := (C74_sentence (A ++ ts) B i (piece_more hA ht) hi' hi hB).mp h
  exact (C74_sentence A B i hA hAi hi hB).mpr ⟨C87_closers A ts (piece_unquoted hA) ht hku hkehe h1.1, h1.2⟩

/-- ... and before a new paragraph. -/
theorem C87_paragraph (A ts B : List Token) (n : Token) (hA : Piece A) (hn : n.selmaho = .Niho) (hB : NotBound B)
    (ht : ∀ t ∈ ts, t.selmaho ∈ Selmaho.Ku :: Selmaho.Kehe :: closing) (hku : ∀ t ∈ ts, t.selmaho = .Ku → ¬ EndsWithNa A)
    (hkehe : ∀ t ∈ ts, t.selmaho = .Kehe → ∀ u ∈ A, u.selmaho ∉ [Selmaho.Vuhu, .Nahu, .Maho])
    (h : IsText (A ++ ts ++ n :: B)) : IsText (A ++ n :: B) := by
  have h1 := (C73_paragraph (A ++ ts) B n (piece_more hA ht) hn hB).mp h
  exact (C73_paragraph A B n hA hn hB).mpr ⟨C87_closers A ts (piece_unquoted hA) ht hku hkehe h1.1, h1.2⟩

/-- `mi klama lo zarci be do be'o ku vau`: the conditions are met and all of it is a text. -/
example : Unquoted (toks [.Koha, .Gismu, .Le, .Gismu, .Be, .Koha]) ∧ ¬ EndsWithNa (toks [.Koha, .Gismu, .Le, .Gismu, .Be, .Koha]) ∧
    IsText (toks [.Koha, .Gismu, .Le, .Gismu, .Be, .Koha, .Beho, .Ku, .Vau]) ∧ IsText (toks [.Koha, .Gismu, .Le, .Gismu, .Be, .Koha]) := by
  refine ⟨⟨by decide, by decide⟩, ?_, by decide +kernel, by decide +kernel⟩
  exact not_na_of rfl (by decide)

/-- `.i` before which it can be left out: `mi klama vau .i do mo`. -/
example : Piece (toks [.Koha, .Gismu]) ∧ Starts (toks [.Koha, .Goha]) ∧ IsText (toks [.Koha, .Gismu, .Vau, .I, .Koha, .Goha]) := by
  refine ⟨⟨by decide, by decide, by decide, by decide⟩, ⟨[], _, rfl, nofun, .inr ⟨_, _, rfl, by decide, ?_⟩⟩, by decide +kernel⟩
  intro bs t rest h hb
  cases bs with
  | nil => cases h; decide
  | cons b bs => exact absurd (hb b (by simp)) (by rw [← (List.cons.inj h).1]; decide)

/-- The conditions are needed: `zo vau`,
`gerku zei vau`, `mi klama ba'e vau`, `mi klama na ku`, an operator in `ke .. ke'e`. -/
theorem C87_conditions :
    (IsText (toks [.Zo, .Vau]) ∧ ¬ IsText (toks [.Zo])) ∧
    (IsText (toks [.Gismu, .Zei, .Vau]) ∧ ¬ IsText (toks [.Gismu, .Zei])) ∧
    (IsText (toks [.Koha, .Gismu, .Bahe, .Vau]) ∧ ¬ IsText (toks [.Koha, .Gismu, .Bahe])) ∧
    (IsText (toks [.Koha, .Gismu, .Na, .Ku]) ∧ ¬ IsText (toks [.Koha, .Gismu, .Na])) ∧
    (IsText (toks [.Li, .Fuha, .Pa, .Boi, .Pa, .Boi, .Ke, .Vuhu, .Kehe]) ∧ ¬ IsText (toks [.Li, .Fuha, .Pa, .Boi, .Pa, .Boi, .Ke, .Vuhu])) := by
  refine ⟨⟨?_, ?_⟩, ⟨?_, ?_⟩, ⟨?_, ?_⟩, ⟨?_, ?_⟩, ⟨?_, ?_⟩⟩ <;> decide +kernel

/-- Other words that close something have to be there: `lo'u .. le'u`, `tei .. foi`; and a closing word cannot be put just
anywhere: `mi klama ku`. -/
theorem C87_others :
    (IsText (toks [.Lohu, .Koha, .Lehu]) ∧ ¬ IsText (toks [.Lohu, .Koha])) ∧ (IsText (toks [.Tei, .By, .Foi]) ∧ ¬ IsText (toks [.Tei, .By])) ∧
    (IsText (toks [.Koha, .Gismu]) ∧ ¬ IsText (toks [.Koha, .Gismu, .Ku])) := by
  refine ⟨⟨?_, ?_⟩, ⟨?_, ?_⟩, ⟨?_, ?_⟩⟩ <;> decide +kernel

end Sneturfahi.Props
