import Verif.Proof.FuBack

/-!
# Exactly the words with the form of a fu'ivla are fu'ivla (C90)
-/

namespace Sneturfahi.Props

open Spec Derives

set_option linter.constructorNameAsVariable false

/-- A word with content: one classified as a gismu, a lujvo or a fu'ivla. -/
def ContentWord (w : List Char) : Prop := ∃ k ∈ [Selmaho.Gismu, .Lujvo, .Fuhivla], classify ⟨0, w⟩ = .val (k, false)

namespace FForm

attribute [local irreducible] parseRule

open Names (text)

/-- What the rules find is not in the table. -/
theorem by_rules {w : List Char} {k : Selmaho} (hk : k ∈ [Selmaho.Gismu, .Lujvo, .Fuhivla]) (h : generalPure w = k) : classifyPure w = (k, false) := by
  have ht : w.getLast? ≠ some ',' := by
    intro e
    rw [general_trailing e] at h
    subst h
    exact absurd hk (by decide)
  have nf : ¬ CmavoForm (noCommas w) := by
    intro hf
    rw [general_of_form ht hf] at h
    subst h
    exact absurd hk (by decide)
  have e : classifyBase w = (generalPure w, false) := by
    rcases classify_cases w with ⟨a, ha, hw, _, h2⟩ | ⟨hy, hlen, h2⟩ | h2
    · exfalso
      have := List.all_eq_true.mp (List.all_eq_true.mp CForm.table_forms a ha) _ hw
      simp only [Bool.or_eq_true, beq_iff_eq] at this
      rcases this with this | this
      · -- the entry with a space
        rw [generalPure_comma ht] at h
        have e0 : (noCommas w).map hToApostrophe = c!" vi'ei'e" := this
        have inv : ∀ {c d : Char}, hToApostrophe c = d → c = d ∨ c = 'h' := by
          intro c d e
          unfold hToApostrophe at e
          split at e
          · rename_i hx; right; simpa using hx
          · left; exact e
        have : noCommas w ∈ [c!" vi'ei'e", c!" vi'eihe", c!" vihei'e", c!" viheihe"] := by
          have hno : ∀ {c d : Char}, hToApostrophe c = d → d ≠ '\'' → c = d := by
            intro c d e hd
            rcases inv e with e' | e'
            · exact e'
            · subst e'; exact absurd e.symm hd
          · simp only [List.map_eq_cons_iff, List.map_eq_nil_iff] at e0
            obtain ⟨a, _, ea, e1, b, _, rfl, e2, c, _, rfl, e3, d, _, rfl, e4, e, _, rfl, e5, f, _, rfl, e6, g, _, rfl, e7, i, _, rfl, e8, rfl⟩ := e0
            rw [ea]
            have := hno e1 (by decide); subst this
            have := hno e2 (by decide); subst this
            have := hno e3 (by decide); subst this
            have := hno e5 (by decide); subst this
            have := hno e6 (by decide); subst this
            have := hno e8 (by decide); subst this
            rcases inv e4 with rfl | rfl <;> rcases inv e7 with rfl | rfl <;> decide
        have any : ∀ x ∈ [c!" vi'ei'e", c!" vi'eihe", c!" vihei'e", c!" viheihe"], generalPure x = .AnyText := by decide +kernel
        rw [any _ this] at h
        subst h
        exact absurd hk (by decide)
      · exact nf (CForm.unquote_form (CForm.formB_sound this))
    · exfalso
      simp only [isY, Bool.and_eq_true, List.all_eq_true, beq_iff_eq] at hy
      refine nf (.inr (.inl ⟨?_, ?_⟩))
      · intro e
        have : tableText w = (noCommas w).map hToApostrophe := rfl
        rw [this, e] at hy
        simp at hy
      · intro c hc
        have h1 := hy.2 (hToApostrophe c) (List.mem_map.mpr ⟨c, hc, rfl⟩)
        unfold hToApostrophe at h1
        split at h1
        · exact absurd h1 (by decide)
        · subst h1; decide
    · exact h2
  unfold classifyPure
  rw [e, h]
  simp only [List.mem_cons, List.not_mem_nil, or_false] at hk
  rcases hk with rfl | rfl | rfl <;> rfl

theorem content_iff (w : List Char) : ContentWord w ↔ Fu.IsContent w := by
  have sub : ∀ k ∈ [Selmaho.Gismu, .Lujvo, .Fuhivla], k ∈ ruleSelmaho := by decide
  constructor
  · rintro ⟨k, hk, h⟩
    have := (classify_by_rule (classify_val h) (sub k hk)).1
    show generalPure w ∈ _
    rw [this]; exact hk
  · intro h
    refine ⟨generalPure w, h, ?_⟩
    rw [classify_eq]
    exact congrArg _ (by_rules h rfl)

/-! ### The sounds -/

/-- Sounds that go together, up to a vowel. -/
theorem good_iff {s : List Sound} (hl : ∃ g, s.getLast? = some (.vowels g)) : Names.Good s ↔
    (∀ x ∈ s, x.WellFormed) ∧ (∀ a x y b, s = a ++ x :: y :: b → x.MayPrecede y) ∧
    (∀ a x y z b, s = a ++ .consonant x :: .consonant y :: .consonant z :: b → [lower x, lower y, lower z] ∉ forbiddenTriples) := by
  induction s with
  | nil => simp at hl
  | cons x s ih =>
    by_cases hs : s = []
    · subst hs
      obtain ⟨c, hc⟩ := hl
      simp at hc
      subst hc
      constructor
      · intro h
        refine ⟨by simpa using h.1, ?_, ?_⟩
        · intro a x y b e
          have := congrArg List.length e
          simp at this
          omega
        · intro a x y z b e
          have := congrArg List.length e
          simp at this
          omega
      · intro h
        exact ⟨h.1 _ (by simp), ⟨rfl, rfl⟩, trivial, trivial⟩
    · have hl' : ∃ c, s.getLast? = some (.vowels c) := by
        obtain ⟨c, hc⟩ := hl
        refine ⟨c, ?_⟩
        rw [← hc]
        cases s with
        | nil => exact absurd rfl hs
        | cons y t => simp [List.getLast?_cons]
      have ih := ih hl'
      constructor
      · rintro ⟨h1, h2, h3, h4⟩
        obtain ⟨i1, i2, i3⟩ := ih.mp h4
        refine ⟨by simpa using ⟨h1, i1⟩, ?_, ?_⟩
        · intro a x' y b e
          cases a with
          | nil =>
            simp only [List.nil_append, List.cons.injEq] at e
            obtain ⟨rfl, rfl⟩ := e
            exact h2
          | cons z a =>
            simp only [List.cons_append, List.cons.injEq] at e
            exact i2 a x' y b e.2
        · intro a x' y z b e
          cases a with
          | nil =>
            simp only [List.nil_append, List.cons.injEq] at e
            obtain ⟨rfl, rfl⟩ := e
            exact h3
          | cons w a =>
            simp only [List.cons_append, List.cons.injEq] at e
            exact i3 a x' y z b e.2
      · rintro ⟨h1, h2, h3⟩
        refine ⟨h1 _ (by simp), ?_, ?_, ih.mpr ⟨fun y hy => h1 y (by simp [hy]), fun a x' y b e => h2 (x :: a) x' y b (by simp [e]),
          fun a x' y z b e => h3 (x :: a) x' y z b (by simp [e])⟩⟩
        · cases s with
          | nil => exact absurd rfl hs
          | cons y t => exact h2 [] x y t rfl
        · unfold Names.Triple
          split
          · rename_i x y z t e
            exact h3 [] x y z t (by simpa using e)
          · trivial

theorem small_of {x : Sound} (hw : x.WellFormed) (hd : ∀ c, x ≠ .digit c) (hy : ∀ c ∈ x.letters, c ∉ c!"yYAEIOU") : Fu.Small x := by
  cases x with
  | digit c => exact absurd rfl (hd c)
  | apostrophe c => trivial
  | consonant c => trivial
  | glide c =>
    have k : ∀ c ∈ c!"iuIU", c ∉ c!"yYAEIOU" → c ∈ c!"iu" := by decide
    exact k c hw (hy c (by simp [Sound.letters]))
  | vowels g =>
    have k1 : ∀ v ∈ Names.vowelSet, v ∉ c!"yYAEIOU" → [v] ∈ Fu.smallGroups := by decide
    have k2 : ∀ p ∈ Names.pairs, ∀ v ∈ p.1, ∀ w ∈ p.2, ¬ v ∈ c!"yYAEIOU" → ¬ w ∈ c!"yYAEIOU" → [v, w] ∈ Fu.smallGroups := by
      intro p hp v hv w hw
      revert w v p
      have : ∀ p ∈ Names.pairs, ∀ v ∈ p.1, ∀ w ∈ p.2, ((c!"yYAEIOU").contains v || (c!"yYAEIOU").contains w || Fu.smallGroups.contains [v, w]) = true := by decide
      intro p hp v hv w hw h1 h2
      have := this p hp v hv w hw
      simpa [List.contains_iff_mem, h1, h2] using this
    rcases Names.group_cases hw with ⟨v, hv, rfl⟩ | ⟨v, w, ⟨p, hp, h1, h2⟩, rfl⟩
    · exact k1 v hv (hy v (by simp [Sound.letters]))
    · exact k2 p hp v h1 w h2 (hy v (by simp [Sound.letters])) (hy w (by simp [Sound.letters]))

theorem mem_text {x : Sound} {s : List Sound} (hx : x ∈ s) {c : Char} (hc : c ∈ x.letters) : c ∈ text s := List.mem_flatMap.mpr ⟨x, hx, hc⟩

theorem fi_of {a : List Sound} {g : List Char} (hg : Names.Good (a ++ [.vowels g])) (hd : ∀ c, Sound.digit c ∉ a)
    (hy : ∀ c ∈ text (a ++ [.vowels g]), c ∉ c!"yYAEIOU") : Fu.Fi (a ++ [.vowels g]) := by
  refine ⟨hg, ?_, .inr ⟨a, g, rfl⟩⟩
  intro x hx
  refine small_of ((good_iff ⟨g, by simp⟩).mp hg |>.1 x hx) ?_ (fun c hc => hy c (mem_text hx hc))
  rintro c rfl
  rcases List.mem_append.mp hx with h | h
  · exact hd c h
  · simp at h

/-- The initial consonants. -/
theorem on_iff {s : List Sound} (h : Fu.Fi s) : Fu.onOk s = true ↔ ∀ cs g t, s = cs.map Sound.consonant ++ .vowels g :: t → InitialConsonants cs := by
  cases Fu.lead h with
  | nil => exact ⟨fun _ cs g t e => by simp at e, fun _ => by decide +kernel⟩
  | quote q g t =>
    refine ⟨fun _ cs g t e => ?_, fun _ => rfl⟩
    cases cs <;> simp at e
  | glide q g t =>
    refine ⟨fun _ cs g t e => ?_, fun _ => rfl⟩
    cases cs <;> simp at e
  | cons cs g t =>
    rw [Fu.onOk_clust, Fu.init_iff h]
    constructor
    · intro hi cs' g' t' e
      have := congrArg Fu.lc e
      rw [Fu.lc_clust, Fu.lc_clust] at this
      exact this ▸ hi
    · intro hi; exact hi cs g t rfl

theorem two_vowels {a : List Sound} {h : List Char} : 2 ≤ Fu.nv (a ++ [.vowels h]) ↔ ∃ b g c, a = b ++ .vowels g :: c := by
  have e : Fu.nv (a ++ [.vowels h]) = Fu.nv a + 1 := by rw [Fu.nv_append]; rfl
  rw [e]
  constructor
  · intro hn
    have : 0 < a.countP Names.isVowels := by unfold Fu.nv at hn; omega
    obtain ⟨x, hx, hv⟩ := List.countP_pos_iff.mp this
    obtain ⟨b, c, rfl⟩ := List.append_of_mem hx
    cases x with
    | vowels g => exact ⟨b, g, c, rfl⟩
    | _ => cases hv
  · rintro ⟨b, g, c, rfl⟩
    rw [Fu.nv_append, Fu.nv_vowel]
    omega

/-- The sounds of a fu'ivla, by the specification and by the rules. -/
theorem sounds_iff {s : List Sound} (hy : ∀ c ∈ text s, c ∉ c!"yYAEIOU") : FuhivlaSounds s ↔
    Fu.Fi s ∧ (∀ c, s.head? ≠ some (.apostrophe c)) ∧ Fu.onOk s = true ∧ 2 ≤ Fu.nv s ∧ Fu.Inner s := by
  constructor
  · intro h
    obtain ⟨a, g, b, k, e⟩ := h.vowels
    have e' : s = (a ++ .vowels g :: b) ++ [.vowels k] := by rw [e]; simp
    have hg : Names.Good s := (good_iff ⟨k, by rw [e', List.getLast?_concat]⟩).mpr ⟨h.wellFormed, h.neighbours, h.triples⟩
    have hf : Fu.Fi s := by
      rw [e'] at hg hy ⊢
      refine fi_of hg (fun c hc => h.digits c ?_) hy
      rw [e']; simp only [List.mem_append]; exact .inl (by simpa using hc)
    refine ⟨hf, h.start, (on_iff hf).mpr h.initial, ?_, h.medial⟩
    rw [e', two_vowels]
    exact ⟨a, g, b, rfl⟩
  · rintro ⟨hf, h1, h2, h3, h4⟩
    rcases hf.ends with rfl | ⟨a, k, rfl⟩
    · exact absurd h3 (by decide)
    · obtain ⟨w, n, t⟩ := (good_iff ⟨k, by simp⟩).mp hf.good
      obtain ⟨b, g, c, rfl⟩ := two_vowels.mp h3
      exact ⟨w, n, t, hf.noDigit, h1, ⟨b, g, c, k, by simp⟩, (on_iff hf).mp h2, h4⟩

theorem apart_congr {p q : List Char → Prop} (h : ∀ w, p w → q w) {s : List Sound} (hs : FallsApart p s) : FallsApart q s := by
  induction hs with
  | one h1 => exact .one h1
  | word h1 h2 h3 => exact .word h1 h2 (h _ h3)
  | more h1 _ ih => exact .more h1 ih

/-- On texts without commas, the rule for fu'ivla and the form. -/
theorem rule_iff {w : List Char} (hc : ',' ∉ w) (hy : ∀ c ∈ w, c ∉ c!"yYAEIOU") : matchesAll .fuhivla w = true ↔ FuhivlaForm ContentWord w := by
  have cont : ∀ {s : List Sound}, FallsApart ContentWord s ↔ FallsApart Fu.IsContent s := by
    intro s
    exact ⟨apart_congr fun w => (content_iff w).mp, apart_congr fun w => (content_iff w).mpr⟩
  rw [Fu.matches_iff]
  constructor
  · intro h
    obtain ⟨m, hm⟩ := ans_some.mp h
    have := parseRule_append hm
    rw [List.append_nil] at this
    subst this
    obtain ⟨a, g, e, hg, hd⟩ := Fu.fuhivla_back hc hm
    rw [e] at hy h
    have hf := fi_of hg hd hy
    obtain ⟨_, h1, h2, h3, h4, h5, h6, h7⟩ := (Fu.fuhivla_iff hf _).mp h
    rw [e]
    exact ⟨_, (sounds_iff hy).mpr ⟨hf, h4, h5, h6, h7⟩, rfl, h1, h3, fun k => h2 (cont.mp k)⟩
  · rintro ⟨s, hs, e, h1, h2, h3⟩
    have e : w = text s := e
    subst e
    obtain ⟨hf, h4, h5, h6, h7⟩ := (sounds_iff hy).mp hs
    exact (Fu.fuhivla_iff hf _).mpr ⟨rfl, h1, fun k => h3 (cont.mpr k), h2, h4, h5, h6, h7⟩

theorem first_of_form {w : List Char} (h : FuhivlaForm ContentWord w) (hc : ',' ∉ w) (hy : ∀ c ∈ w, c ∉ c!"yYAEIOU") : generalPure w = .Fuhivla := by
  have hm := (rule_iff hc hy).mpr h
  obtain ⟨s, hs, e, h1, h2, h3⟩ := h
  have e : w = text s := e
  subst e
  obtain ⟨hf, h4, h5, h6, h7⟩ := (sounds_iff hy).mp hs
  have m1 : matchesAll .cmevla (text s) = false := by
    have : ¬ matchesAll .cmevla (text s) = true := by rw [Fu.matches_iff, Fu.cmevla_no hf]; simp
    simpa using this
  have m2 : matchesAll .cmavo_minimal (text s) = false := by
    have : ¬ matchesAll .cmavo_minimal (text s) = true := by
      rw [Fu.minimal_iff hf]
      intro k
      obtain ⟨p, e, hp, _⟩ := Fu.cm_inv hf k
      rw [List.append_nil] at e
      exact h3 (.one (e ▸ hp))
    simpa using this
  have m3 : matchesAll .gismu (text s) = false := by
    have : ¬ matchesAll .gismu (text s) = true := by
      rw [Fu.matches_iff]
      intro k
      obtain ⟨f, hl, hlen, e⟩ := Fu.i_gismu k hf.bare
      rw [List.append_nil] at e
      refine h1 (.inr ⟨e ▸ hl, ?_⟩)
      intro hsr
      rw [e] at hsr
      cases hsr <;> simp at hlen
    simpa using this
  unfold generalPure
  simp [m1, m2, m3, hm]

end FForm

/-- **C90.** A word without y and without capital vowels is classified as a fu'ivla if and only if it does not end in a comma and has,
commas aside, the form of a fu'ivla. -/
theorem C90_fuhivla (word : Str) (x : Bool) (hy : ∀ c ∈ word.chars, c ∉ c!"yYAEIOU") : classify word = .val (.Fuhivla, x) ↔
    x = false ∧ word.chars.getLast? ≠ some ',' ∧ FuhivlaForm ContentWord (word.chars.filter (fun c => c != ',')) := by
  have hyn : ∀ c ∈ noCommas word.chars, c ∉ c!"yYAEIOU" := fun c hc => hy c (List.mem_filter.mp hc).1
  constructor
  · intro h
    obtain ⟨hg, hx⟩ := classify_by_rule (classify_val h) (by decide)
    have ht : word.chars.getLast? ≠ some ',' := by
      intro e
      rw [general_trailing e] at hg
      cases hg
    refine ⟨hx, ht, ?_⟩
    rw [generalPure_comma ht] at hg
    obtain ⟨rule, hr, hp⟩ := general_rule hg (by decide)
    simp at hr
    subst hr
    exact (FForm.rule_iff (noCommas_free _) hyn).mp (Fu.matches_iff.mpr (ans_some.mpr ⟨_, hp⟩))
  · rintro ⟨rfl, ht, hf⟩
    have hg : generalPure word.chars = .Fuhivla := by
      rw [generalPure_comma ht]
      exact FForm.first_of_form hf (noCommas_free _) hyn
    rw [classify_eq]
    exact congrArg _ (FForm.by_rules (by decide) hg)

/-! Examples. -/

theorem FForm.iglu : classify ⟨0, c!"iglu"⟩ = .val (.Fuhivla, false) := by decide +kernel
example : FuhivlaForm ContentWord c!"iglu" := ((C90_fuhivla ⟨0, c!"iglu"⟩ false (by decide)).mp FForm.iglu).2.2
example : FuhivlaForm ContentWord c!"spageti" := ((C90_fuhivla ⟨0, c!"spageti"⟩ false (by decide)).mp (by decide +kernel)).2.2
-- `pa` and `skapo`; without `s` a gismu; not made of syllables
example : ¬ FuhivlaForm ContentWord c!"paskapo" := fun h =>
  absurd ((C90_fuhivla ⟨0, c!"paskapo"⟩ false (by decide)).mpr ⟨rfl, by decide, h⟩) (by decide +kernel)
example : ¬ FuhivlaForm ContentWord c!"sbangu" := fun h =>
  absurd ((C90_fuhivla ⟨0, c!"sbangu"⟩ false (by decide)).mpr ⟨rfl, by decide, h⟩) (by decide +kernel)
example : ¬ FuhivlaForm ContentWord c!"atktla" := fun h =>
  absurd ((C90_fuhivla ⟨0, c!"atktla"⟩ false (by decide)).mpr ⟨rfl, by decide, h⟩) (by decide +kernel)

/-! ### Where the first two consonants are (C91) -/

namespace FForm

attribute [local irreducible] parseRule
attribute [-simp] Names.text_cons Names.text_nil Names.text_append

open Lj (C)
open Names (text)

/-- Rafsi only: the rule for lujvo takes them. -/
theorem rafsis_lujvo {s : List Sound} (h : Fu.Fi s) (hr : Rafsis (text s)) : ans (.call .lujvo_minimal) (text s) = some [] := by
  have : ∃ T, text T = text s ∧ Lj.Str T ∧ Lj.Ok T := by
    rcases hr with hr | ⟨hl, hs⟩
    · exact Lj.lujvo_sounds ⟨hr, h.pairs⟩ h.smallText
    · obtain ⟨T, e, h1, h2, _⟩ := Lj.last_sounds hl h.smallText
      have hk : Lj.Ok T := by
        have hp := h.pairs
        rw [← e] at hp
        exact ⟨Lj.fine_good h2 hp.1 hp.2, Lj.fine_plain h2, Lj.fine_hy h2⟩
      have len : 4 ≤ (text T).length := by
        rw [e]
        generalize text s = w at hl hs
        cases hl with
        | short h => exact absurd h hs
        | _ => simp
      rcases h1 with h1 | h1
      · exfalso
        cases h1 <;> simp [Names.text_cons, Names.text_nil, Sound.letters] at len
      · exact ⟨T, e, .tail h1, hk⟩
  obtain ⟨T, e, h1, h2⟩ := this
  rw [← e]
  exact ans_some.mpr ⟨_, (Lj.str_lujvo h1 h2).1⟩

theorem rafsis_first {w : List Char} (h : Rafsis w) : ∃ c t, w = c :: t ∧ IsConsonantLetter c := by
  rcases h with h | ⟨h, _⟩
  · obtain ⟨c, t, e, hc, _⟩ := (LForm.facts h).first
    exact ⟨c, t, e, hc⟩
  · exact (LForm.last_first h).2.1

theorem vowels_more {t : List Char} (h : CmavoVowels t) {q : Char} {g : List Char} (hq : q ∈ c!"'h") (hg : VowelGroup g) : CmavoVowels (t ++ q :: g) := by
  induction h with
  | one h => exact .more h hq (.one hg)
  | @more g' q' t' h1 h2 _ ih => rw [List.append_assoc]; exact .more h1 h2 ih

/-- Particles have the form of cmavo. -/
theorem particle_form {p : List Sound} (h : ParticleSounds p) (hw : ∀ x ∈ p, x.WellFormed) : CmavoForm (text p) := by
  have key : CmavoVowels (text p) ∨ ∃ c t, text p = c :: t ∧ (IsConsonantLetter c ∨ c ∈ c!"iuIU") ∧ CmavoVowels t := by
    induction h with
    | @vowels g =>
      have hg : VowelGroup g := hw (.vowels g) (by simp)
      exact .inl (.one (by simpa [Names.text_cons, Names.text_nil, Sound.letters] using hg))
    | @glide c g => exact .inr ⟨c, g, by simp [Names.text_cons, Names.text_nil, Sound.letters], .inr (hw (.glide c) (by simp)), .one (hw (.vowels g) (by simp))⟩
    | @consonant c g => exact .inr ⟨c, g, by simp [Names.text_cons, Names.text_nil, Sound.letters], .inl (hw (.consonant c) (by simp)), .one (hw (.vowels g) (by simp))⟩
    | @more s q g _ ih =>
      have hq : q ∈ c!"'h" := hw (.apostrophe q) (by simp)
      have hg : VowelGroup g := hw (.vowels g) (by simp)
      have e : text (s ++ [.apostrophe q, .vowels g]) = text s ++ q :: g := by simp [Names.text_append, Names.text_cons, Names.text_nil, Sound.letters]
      rw [e]
      rcases ih (fun x hx => hw x (by simp [hx])) with h | ⟨c, t, e, hc, h⟩
      · exact .inl (vowels_more h hq hg)
      · exact .inr ⟨c, t ++ q :: g, by rw [e]; rfl, hc, vowels_more h hq hg⟩
  rcases key with h | h
  · exact .inr (.inr (.inl h))
  · exact .inr (.inr (.inr h))

/-- Two consonants, or a particle. -/
theorem starts {s : List Sound} (h : Fu.Fi s) (hs : s ≠ []) (hq : ∀ c u, s ≠ .apostrophe c :: u) :
    (∃ c d t, s = C c :: C d :: t) ∨ ∃ t, Fu.cm s = some t := by
  cases Fu.lead h with
  | nil => exact absurd rfl hs
  | quote q g t => exact absurd rfl (hq q _)
  | glide q g t => exact .inr ⟨_, rfl⟩
  | cons cs g t =>
    match cs with
    | [] => exact .inr ⟨_, rfl⟩
    | [c] => exact .inr ⟨_, rfl⟩
    | c :: d :: cs => exact .inl ⟨c, d, _, rfl⟩

/-- After one particle come two consonants. -/
theorem after_particle {s p t : List Sound} (e : s = p ++ t) (hp : ParticleSounds p) (ht : Fu.Fi t) (hq : ∀ c u, t ≠ .apostrophe c :: u)
    (hin : Fu.Inner s) (hn : ¬ FallsApart Fu.IsContent s) : ∃ c d u, t = C c :: C d :: u := by
  have htn : t ≠ [] := by
    rintro rfl
    rw [List.append_nil] at e
    exact hn (.one (e ▸ hp))
  rcases starts ht htn hq with h | ⟨u, hu⟩
  · exact h
  · exfalso
    have hnt : ¬ FallsApart Fu.IsContent t := fun k => hn (e ▸ .more hp k)
    have hc : Fu.cm t ≠ some [] := by
      intro k
      obtain ⟨p2, e2, hp2, _⟩ := Fu.cm_inv ht k
      rw [List.append_nil] at e2
      exact hnt (.one (e2 ▸ hp2))
    have hnc : ¬ Fu.IsContent (text t) := fun k => hn (e ▸ .word hp hq k)
    have hnb : ans (.call .brivla_minimal) (text t) = none := by
      have := fun k => hnc ((Fu.brivla_iff ht hc).mp k)
      simpa using this
    have hb : ans (.alt (.call .gismu) (.alt (.call .fuhivla) (.call .lujvo_minimal))) (text t) = none := by
      rw [← hnb]; exact (ans_body .brivla_minimal (text t)).symm
    rw [ans_alt, ans_alt] at hb
    have b1 : ans (.call .lujvo_minimal) (text t) = none := by
      cases h1 : ans (.call .gismu) (text t) <;> cases h2 : ans (.call .fuhivla) (text t) <;> simp_all
    have b2 : ans (.call .fuhivla) (text t) = none := by
      cases h1 : ans (.call .gismu) (text t) <;> cases h2 : ans (.call .fuhivla) (text t) <;> simp_all
    have hnr : ¬ Rafsis (text t) := by
      intro k
      rw [rafsis_lujvo ht k] at b1
      cases b1
    have hsl : ∀ c w, text t = c :: w → IsConsonantLetter c → ¬ Rafsis w := by
      intro c w ew hcc hr
      obtain ⟨d, w', rfl, hd⟩ := rafsis_first hr
      obtain ⟨u1, rfl, e1⟩ := Fu.first_consonant ht.good ht.noDigit hcc ew
      obtain ⟨u2, rfl, _⟩ := Fu.first_consonant ht.tail.good ht.tail.noDigit hd e1.symm
      simp [Fu.cm] at hu
    have hon : Fu.onOk t = true := by
      match t, ht, hu with
      | .vowels g :: t, _, _ => have := Fu.onOk_clust [] g t; simpa [Fu.init_nil] using this
      | .consonant c :: .vowels g :: t, ht, _ => have := Fu.onOk_clust [c] g t; simpa [Fu.init_one ht.good.1] using this
      | .glide c :: .vowels g :: t, _, _ => rfl
    have hin' : Fu.Inner t := fun a g cs h b k => hin (p ++ a) g cs h b (by rw [e, k, List.append_assoc])
    have hnv : 2 ≤ Fu.nv t := by
      obtain ⟨p2, e2, hp2, hfu, _⟩ := Fu.cm_inv ht hu
      have n1 : 1 ≤ Fu.nv p2 := by
        cases hp2 with
        | vowels => simp [Fu.nv, Names.isVowels]
        | glide => simp [Fu.nv, Names.isVowels]
        | consonant => simp [Fu.nv, Names.isVowels]
        | more => rw [Fu.nv_append]; simp [Fu.nv, Names.isVowels]
      have n2 : Fu.nv u ≠ 0 := by
        intro k
        rw [Fu.nv_nil_iff hfu] at k
        subst k
        exact hc hu
      rw [e2, Fu.nv_append]
      omega
    have hq' : ∀ c, t.head? ≠ some (.apostrophe c) := by
      intro c k
      cases t with
      | nil => cases k
      | cons x t => simp at k; subst k; exact hq c t rfl
    rw [(Fu.fuhivla_iff ht []).mpr ⟨rfl, hnr, hnt, hsl, hq', hon, hnv, hin'⟩] at b2
    cases b2

end FForm

/-- **C91.** A word without y and without capital vowels that is classified as a fu'ivla has, commas aside, two consonants next to each
other, with nothing before them or only something with the form of one cmavo. -/
theorem C91_two_consonants (word : Str) (x : Bool) (h : classify word = .val (.Fuhivla, x)) (hy : ∀ c ∈ word.chars, c ∉ c!"yYAEIOU") :
    ∃ p c d t, word.chars.filter (fun c => c != ',') = p ++ c :: d :: t ∧ IsConsonantLetter c ∧ IsConsonantLetter d ∧ (p = [] ∨ CmavoForm p) := by
  obtain ⟨_, _, s, hs, e, h1, h2, h3⟩ := (C90_fuhivla word x hy).mp h
  have hyn : ∀ c ∈ Names.text s, c ∉ c!"yYAEIOU" := by
    have e : word.chars.filter (fun c => c != ',') = Names.text s := e
    rw [← e]
    exact fun c hc => hy c (List.mem_filter.mp hc).1
  obtain ⟨hf, h4, h5, h6, h7⟩ := (FForm.sounds_iff hyn).mp hs
  have hsn : s ≠ [] := by rintro rfl; exact absurd h6 (by decide)
  have hq : ∀ c u, s ≠ .apostrophe c :: u := by rintro c u rfl; exact h4 c rfl
  rw [e]
  show ∃ p c d t, Names.text s = _ ∧ _
  rcases FForm.starts hf hsn hq with ⟨c, d, t, rfl⟩ | ⟨t, ht⟩
  · exact ⟨[], c, d, Names.text t, by simp [Sound.letters], hf.good.1, hf.tail.good.1, .inl rfl⟩
  · obtain ⟨p, rfl, hp, hft, _, hqt, _⟩ := Fu.cm_inv hf ht
    have hn : ¬ FallsApart Fu.IsContent (p ++ t) := fun k => h3 (FForm.apart_congr (fun w => (FForm.content_iff w).mpr) k)
    obtain ⟨c, d, u, rfl⟩ := FForm.after_particle rfl hp hft hqt h7 hn
    refine ⟨Names.text p, c, d, Names.text u, by simp [Sound.letters], hft.good.1, hft.tail.good.1, .inr (FForm.particle_form hp ?_)⟩
    intro x hx
    exact hs.wellFormed x (by simp [hx])

example : ∃ p c d t, c!"iglu" = p ++ c :: d :: t ∧ IsConsonantLetter c ∧ IsConsonantLetter d ∧ (p = [] ∨ CmavoForm p) :=
  C91_two_consonants ⟨0, c!"iglu"⟩ false FForm.iglu (by decide)

end Sneturfahi.Props
