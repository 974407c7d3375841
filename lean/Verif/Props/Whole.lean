import Verif.Spec.Whole
import Verif.Proof.Whole
import Verif.Props.Lujvo

/-!
# Lujvo with cmavo written before them (C86)
-/

namespace Sneturfahi.Props

open Spec Derives

attribute [local irreducible] parseRule

theorem rafsi_last {w : List Char} (h : RafsiWord w) : ∃ u v, w = u ++ [v] ∧ IsVowelLetter v := by
  have dv : ∀ {v w : Char}, IsDiphthong v w → IsVowelLetter w := by
    intro v w h
    have k1 : ∀ w ∈ c!"iuIU", w ∈ c!"aeiouAEIOU" := by decide
    have k2 : ∀ w ∈ c!"iI", w ∈ c!"aeiouAEIOU" := by decide
    rcases h with h | h
    · exact k1 w h.2
    · exact k2 w h.2
  have sh : ∀ {f}, ShortRafsi f → ∃ u v, f = u ++ [v] ∧ IsVowelLetter v := by
    intro f h
    cases h with
    | @cvv c v w _ h => exact ⟨[c, v], w, rfl, dv h⟩
    | @ccv c d v _ h => exact ⟨[c, d], v, rfl, h⟩
  have la : ∀ {f}, LastRafsi f → ∃ u v, f = u ++ [v] ∧ IsVowelLetter v := by
    intro f h
    cases h with
    | short h => exact sh h
    | @cvhv c v q w _ _ _ h => exact ⟨[c, v, q], w, rfl, h⟩
    | @cvccv c v d e w _ _ _ _ h => exact ⟨[c, v, d, e], w, rfl, h⟩
    | @ccvcv c d v e w _ _ _ h => exact ⟨[c, d, v, e], w, rfl, h⟩
  induction h with
  | @two a f _ hf => obtain ⟨u, v, rfl, hv⟩ := la hf; exact ⟨a ++ u, v, by simp, hv⟩
  | @bare a f _ hf => obtain ⟨u, v, rfl, hv⟩ := sh hf; exact ⟨a ++ u, v, by simp, hv⟩
  | @more a w _ _ ih => obtain ⟨u, v, rfl, hv⟩ := ih; exact ⟨a ++ u, v, by simp, hv⟩

/-- How a word stands at the end of a chunk: nothing falls off, or one cmavo does and what is left cannot be a word. -/
structure StandsWhole (w : List Char) : Prop where
  follows : Follows w
  last : ∃ u c, w = u ++ [c] ∧ c ∈ lowVowels
  whole : (fallOffPure w = none ∧ postWordPure w = true) ∨
    ∃ a r, w = a ++ r ∧ parseRule .cmavo_minimal w = some (a, r) ∧ fallOffPure r = none ∧ postWordPure r = false

theorem standsWhole_words {cm : List (List Char)} {w : List Char} (h1 : ∀ w, cm.head? = some w → InitialCmavo w)
    (h2 : ∀ w ∈ cm.tail, SimpleCmavo w) (h : StandsWhole w) : singleWords (cm.flatten ++ w) = cm ++ [w] := by
  have hf := falls_cmavo h1 h2 h.follows
  obtain ⟨u, c, e, hc⟩ := h.last
  have hec : endsInConsonant (cm.flatten ++ w) = false := by
    have := (vowel_end (u := cm.flatten ++ u) hc).1
    rw [e]
    simpa using this
  have hl := lastWord_vowel e hc
  unfold singleWords
  rw [hec, hf]
  rcases h.whole with ⟨f1, f2⟩ | ⟨a, r, e2, hm, f1, f2⟩
  · rw [falls_none f1]
    simp only [List.append_nil]
    cases hcm : cm.getLast? with
    | none =>
      have : cm = [] := by simpa using hcm
      subst this
      simp [hl]
    | some w => simp [f2, hl]
  · have : falls w = ([a], r) := by rw [falls_some (fallOff_of_minimal hm), falls_none f1]
    rw [this]
    simp [f2, ← e2, hl]

theorem held_stands {w : List Char} (h : HeldLujvo w) : StandsWhole w := by
  obtain ⟨hf, hs, hh⟩ := h
  obtain ⟨T, hT, hstr, hok⟩ := Lj.lujvo_sounds hf hs
  have hlast : ∃ u c, w = u ++ [c] ∧ c ∈ lowVowels := by
    obtain ⟨u, v, e, hv⟩ := rafsi_last hf.1
    exact ⟨u, v, e, Lj.small_five hv (hs v (by rw [e]; simp))⟩
  have split : ∀ {c g d e t}, w = c :: (g ++ d :: e :: t) → IsConsonantLetter c → Groups g → IsConsonantLetter d → IsConsonantLetter e →
      fallOffPure (d :: e :: t) = none ∧ postWordPure (d :: e :: t) = false → StandsWhole w := by
    intro c g d e t ew hc hg hd he hr
    have hm := minimal_simple (w := c :: g) (r := d :: e :: t) ⟨c, g, rfl, hc, hg⟩ (.inr ⟨d, e, t, rfl, hd, mem_vc_of_consonant he⟩)
    have ew2 : w = (c :: g) ++ d :: e :: t := by rw [ew]; simp
    rw [← ew2] at hm
    obtain ⟨v, u, rfl, hv⟩ := groups_head hg
    exact ⟨.inr ⟨c, v, _, by rw [ew, List.cons_append], hc, mem_vc_of_vowel hv⟩, hlast, .inr ⟨_, _, ew2, hm, hr.1, hr.2⟩⟩
  cases hh with
  | @cluster c d t hc hd =>
    have := Lj.cluster_start hok hc hd hT
    have hp := Lj.post_word hstr hok
    rw [hT] at this hp
    exact ⟨.inr ⟨c, d, t, rfl, hc, mem_vc_of_consonant hd⟩, hlast, .inl ⟨this, hp⟩⟩
  | @y c v d t hc hv hd =>
    have hv := Lj.small_five hv (hs v (by simp))
    have := Lj.y_start hstr hok hv hd hT
    have hp := Lj.post_word hstr hok
    rw [hT] at this hp
    exact ⟨.inr ⟨c, v, _, rfl, hc, mem_vc_of_vowel hv⟩, hlast, .inl ⟨this, hp⟩⟩
  | @pair c g d e t hc hg hd he hp =>
    exact split rfl hc hg hd he (Lj.pair_rest hok hd he hp (p := c :: g) (by rw [hT]; simp))
  | @one c g d e h hc hg hd he hh =>
    have hpp := hf.2.1 (c :: g) d e h (by simp) hd he
    refine split rfl hc hg hd he ?_
    have kinds : ∀ h ∈ vowelGroups, (∃ v ∈ lowVowels, h = [v]) ∨ ∃ v w, [v, w] ∈ Lj.diphs ∧ h = [v, w] := by
      intro h hh
      simp only [vowelGroups, List.mem_cons, List.not_mem_nil, or_false] at hh
      rcases hh with rfl | rfl | rfl | rfl | rfl | rfl | rfl | rfl | rfl
      iterate 5 exact .inl ⟨_, by decide, rfl⟩
      all_goals exact .inr ⟨_, _, by decide, rfl⟩
    rcases kinds h hh with ⟨v, hv, rfl⟩ | ⟨v, w, hv, rfl⟩
    · exact gismu1 hd he hv hpp
    · exact Lj.one_rest hok hd he hv (p := c :: g) (by rw [hT]; simp)

theorem dividesMore_words {c : List Char} {ws : List (List Char)} (h : DividesMore c ws) : singleWords c = ws := by
  cases h with
  | plain h => exact divides_words h
  | lujvo h1 h2 h3 => exact standsWhole_words h1 h2 (held_stands h3)

/-- **C86.** If every chunk of a text is a row of ordinary cmavo, possibly followed by a gismu or by a lujvo that holds together, or
ends in a consonant, then the words of the text are exactly these cmavo, gismu, lujvo and names. -/
theorem C86_lujvo_written_together (p : Profile) (input : Str) (h : input.len < 2 ^ 32) (chunks words : List (List Char))
    (hs : SplitsInto input.chars chunks) (hd : DividesMoreAll chunks words) :
    ∃ spans, decomposeAll p input = .val spans ∧ TextsOf input spans words := by
  refine ⟨_, decomposeAll_eq p input h, ?_⟩
  have key : ∀ {cs ws}, DividesMoreAll cs ws → cs.flatMap singleWords = ws := by
    intro cs ws hd
    induction hd with
    | nil => rfl
    | cons h _ ih => rw [List.flatMap_cons, dividesMore_words h, ih]
  have ht := decomposed_texts input
  unfold wordTexts at ht
  rw [splitsInto_iff] at hs
  rw [← hs, key hd] at ht
  rw [← hs]
  exact ht

/-! ### In use -/

theorem LForm.initial_pair {c d : Char} (h : c ∈ allConsonants ∧ d ∈ allConsonants ∧ [lower c, lower d] ∈ initialPairs) : IsInitialPair c d := h
theorem LForm.vowel {v : Char} (h : v ∈ c!"aeiouAEIOU") : IsVowelLetter v := h

/-- `lenulojbau`. -/
example : DividesMore c!"lenulojbau" [c!"le", c!"nu", c!"lojbau"] := by
  refine .lujvo (cmavo := [c!"le", c!"nu"]) ?_ ?_ ⟨⟨.two (a := c!"loj") (f := c!"bau") (.cvc (by decide) (LForm.vowel (by decide)) (by decide))
    (.short (.cvv (by decide) (by unfold IsDiphthong; decide))), LForm.pairs_sound (by decide +kernel)⟩, by decide, ?_⟩
  · intro w h; cases h
    exact .inl ⟨'l', c!"e", rfl, by decide, .one (by decide)⟩
  · intro w h
    simp at h
    subst h
    exact ⟨'n', c!"u", rfl, by decide, .one (by decide)⟩
  · exact .one (g := c!"o") (h := c!"au") (by decide) (.one (by decide)) (by decide) (by decide) (by decide)

/-- The other ways to hold together. -/
example : HeldLujvo c!"jbobau" ∧ HeldLujvo c!"tobybau" ∧ HeldLujvo c!"to'ersance" := by
  have bau : ShortRafsi c!"bau" := .cvv (by decide) (by unfold IsDiphthong; decide)
  refine ⟨⟨⟨.two (a := c!"jbo") (.ccv (LForm.initial_pair (by decide +kernel)) (LForm.vowel (by decide))) (.short bau), LForm.pairs_sound (by decide +kernel)⟩, by decide, ?_⟩,
    ⟨⟨.two (a := c!"toby") (.cvcy (by decide) (LForm.vowel (by decide)) (by decide) (by decide)) (.short bau), LForm.pairs_sound (by decide +kernel)⟩, by decide, ?_⟩,
    ⟨⟨.two (a := c!"to'er") (f := c!"sance") (.cvhv (by decide) (LForm.vowel (by decide)) (by decide) (LForm.vowel (by decide)) (.inl (by decide)))
      (.cvccv (by decide) (LForm.vowel (by decide)) (by decide) (by decide) (LForm.vowel (by decide))), LForm.pairs_sound (by decide +kernel)⟩, by decide, ?_⟩⟩
  · exact .cluster (by decide) (by decide)
  · exact .y (by decide) (LForm.vowel (by decide)) (by decide)
  · exact .pair (g := c!"o'e") (by decide) (.more (g := c!"o") (t := c!"e") (by decide) (by decide) (.one (by decide))) (by decide) (by decide) (by decide +kernel)

/-- **C86, not every lujvo.** `tosmabru` is a lujvo, and is classified as one, but a text with this word in it is divided into `to`
and `smabru`. -/
theorem C86_tosmabru (p : Profile) : LujvoForm c!"tosmabru" ∧ classify ⟨0, c!"tosmabru"⟩ = .val (.Lujvo, false) ∧
    ∃ spans, decomposeAll p ⟨0, c!"tosmabru"⟩ = .val spans ∧ TextsOf ⟨0, c!"tosmabru"⟩ spans [c!"to", c!"smabru"] := by
  have hl : LujvoForm c!"tosmabru" := ⟨.two (a := c!"tos") (f := c!"mabru") (.cvc (by decide) (LForm.vowel (by decide)) (by decide))
    (.cvccv (by decide) (LForm.vowel (by decide)) (by decide) (by decide) (LForm.vowel (by decide))), LForm.pairs_sound (by decide +kernel)⟩
  have hsm : HeldLujvo c!"smabru" := ⟨⟨.two (a := c!"sma") (f := c!"bru") (.ccv (LForm.initial_pair (by decide +kernel)) (LForm.vowel (by decide)))
    (.short (.ccv (LForm.initial_pair (by decide +kernel)) (LForm.vowel (by decide)))), LForm.pairs_sound (by decide +kernel)⟩, by decide, .cluster (by decide) (by decide)⟩
  refine ⟨hl, (C85_exactly ⟨0, c!"tosmabru"⟩ false (by decide)).mpr ⟨rfl, by decide, hl⟩,
    C86_lujvo_written_together p ⟨0, c!"tosmabru"⟩ (by decide) [c!"tosmabru"] _ ?_ (.cons (ws := [c!"to", c!"smabru"]) (wss := []) ?_ .nil)⟩
  · rw [splitsInto_iff]; decide
  · refine .lujvo (cmavo := [c!"to"]) (l := c!"smabru") ?_ (by simp) hsm
    intro w h; cases h
    exact .inl ⟨'t', c!"o", rfl, by decide, .one (by decide)⟩

noncomputable def brybauCheck : Bool := always (.ok 6) (winR true grammarM 40 .lujvo_minimal (winOf [c!"b", c!"r", c!"y", c!"b", c!"a", c!"u"]))

theorem win_brybau : brybauCheck = true := by unfold brybauCheck; decide +kernel
theorem win_bry : clusterCheck false [c!"b", c!"r", c!"y", c!"b"] = true := by decide +kernel

/-- **C86, y as a vowel.** Nor does `mabrybau` stay whole, though `brybau` is not built from rafsi: the rules take y for a vowel, and
so `bry` for a rafsi. -/
theorem C86_mabrybau (p : Profile) : LujvoForm c!"mabrybau" ∧ classify ⟨0, c!"mabrybau"⟩ = .val (.Lujvo, false) ∧
    ∃ spans, decomposeAll p ⟨0, c!"mabrybau"⟩ = .val spans ∧ TextsOf ⟨0, c!"mabrybau"⟩ spans [c!"ma", c!"brybau"] := by
  have hl : LujvoForm c!"mabrybau" := ⟨.two (a := c!"mabry") (f := c!"bau") (.cvccy (by decide) (LForm.vowel (by decide)) (by decide) (by decide) (by decide))
    (.short (.cvv (by decide) (by unfold IsDiphthong; decide))), LForm.pairs_sound (by decide +kernel)⟩
  refine ⟨hl, C84_lujvo ⟨0, c!"mabrybau"⟩ (by decide) hl (by decide), _, decomposeAll_eq p _ (by decide), ?_⟩
  have hm := minimal_simple (w := c!"ma") (r := c!"brybau") ⟨'m', c!"a", rfl, by decide, .one (by decide)⟩ (.inr ⟨'b', 'r', _, rfl, by decide, by decide⟩)
  have hcm := cluster_minimal (t := c!"ryb") win_bry c!"au" (fun h => by cases h) (c := 'b') (by decide) ⟨by decide, by decide, by decide, by decide, trivial⟩
  simp only [List.cons_append, List.nil_append] at hm hcm
  have hf : fallOffPure c!"brybau" = none := by
    unfold fallOffPure
    rw [hcm.1]
    exact needCapital_none rfl (by decide)
  have hlj : (parseRule .lujvo_minimal c!"brybau").isSome = true := by
    rw [win_ok_end win_brybau (m := c!"brybau") ⟨by decide, by decide, by decide, by decide, by decide, by decide, trivial⟩]
    rfl
  have hp : postWordPure c!"brybau" = true := by
    unfold postWordPure
    rw [hcm.2, hlj]
    simp
  have hw : singleWords c!"mabrybau" = [c!"ma", c!"brybau"] := by
    have hfalls : falls c!"mabrybau" = ([c!"ma"], c!"brybau") := by
      rw [falls_some (fallOff_of_minimal hm), falls_none hf]
    unfold singleWords
    rw [hfalls, show endsInConsonant c!"mabrybau" = false by decide]
    simp [hp, show lastWord c!"brybau" = [c!"brybau"] by decide]
  have ht := decomposed_texts ⟨0, c!"mabrybau"⟩
  unfold wordTexts at ht
  have hc : SplitsInto c!"mabrybau" [c!"mabrybau"] := by rw [splitsInto_iff]; decide
  rw [splitsInto_iff] at hc
  rw [← hc] at ht ⊢
  simpa [hw] using ht

end Sneturfahi.Props
