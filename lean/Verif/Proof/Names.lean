import Verif.Spec.Names
import Verif.Proof.CmavoForm

/-!
# What `cmevla` matches
-/

namespace Sneturfahi

set_option linter.constructorNameAsVariable false

open Derives Spec

namespace Names

/-! ### Outcomes on texts without commas -/

theorem one_cons {chs : List Char} {c : Char} {t : List Char} (hc : c ≠ ',') (hm : c ∈ chs) :
    Derives grammar (.oneOf chs) (c :: t) (some ([c], t)) :=
  .oneOfYes (k := []) (by simp [AllCommas]) hc hm

theorem one_none {chs : List Char} {c : Char} {t : List Char} (hc : c ≠ ',') (hm : c ∉ chs) :
    Derives grammar (.oneOf chs) (c :: t) none :=
  .oneOfNo (k := []) (by simp [AllCommas]) hc hm

theorem one_nil {chs : List Char} : Derives grammar (.oneOf chs) [] none := .oneOfEnd (by simp [AllCommas])

/-- A letter followed by something. -/
theorem peek_cons {rule p : Rule} {chs : List Char} (hg : grammar rule = .andPeek (.oneOf chs) (.call p)) {c : Char} {t : List Char}
    (hc : c ≠ ',') : parseRule rule (c :: t) = if c ∈ chs ∧ parseRule p t ≠ none then some ([c], t) else none := by
  apply derives_iff.mp
  apply Derives.call
  rw [hg]
  by_cases hm : c ∈ chs
  · cases hp : parseRule p t with
    | none => simpa [hm] using Derives.andPeekNo (one_cons hc hm) (derives_iff.mpr hp)
    | some x => simpa [hm] using Derives.andPeekYes (one_cons hc hm) (derives_iff.mpr hp)
  · simpa [hm] using Derives.andPeekFail (one_none hc hm)

theorem peek_nil {rule p : Rule} {chs : List Char} (hg : grammar rule = .andPeek (.oneOf chs) (.call p)) : parseRule rule [] = none := by
  apply derives_iff.mp
  apply Derives.call
  rw [hg]
  exact .andPeekFail one_nil

/-- A body made of alternatives that are rules. -/
def isAlts : Exp Rule → Bool
  | .call _ => true
  | .alt a b => isAlts a && isAlts b
  | _ => false

theorem alts_none {e : Exp Rule} {cs : List Char} (h : isAlts e = true) : (∀ r ∈ altCalls e, parseRule r cs = none) → Derives grammar e cs none := by
  induction e with
  | call r => intro hr; exact derives_iff.mpr (hr r (by simp [altCalls]))
  | alt a b iha ihb =>
    intro hr
    simp only [isAlts, Bool.and_eq_true] at h
    exact .altR (iha h.1 (fun r h => hr r (by simp [altCalls, h]))) (ihb h.2 (fun r h => hr r (by simp [altCalls, h])))
  | _ => cases h

/-- A letter not followed by any of some rules. -/
theorem not_cons {rule : Rule} {chs : List Char} {p : Exp Rule} (hg : grammar rule = .andNot (.oneOf chs) p) (ha : isAlts p = true)
    {c : Char} {t : List Char} (hc : c ≠ ',') (hm : c ∈ chs) (hn : ∀ r ∈ altCalls p, parseRule r t = none) :
    parseRule rule (c :: t) = some ([c], t) := by
  apply derives_iff.mp
  apply Derives.call
  rw [hg]
  exact .andNotYes (one_cons hc hm) (alts_none ha hn)

theorem not_other {rule : Rule} {chs : List Char} {p : Exp Rule} (hg : grammar rule = .andNot (.oneOf chs) p)
    {c : Char} {t : List Char} (hc : c ≠ ',') (hm : c ∉ chs) : parseRule rule (c :: t) = none := by
  apply derives_iff.mp
  apply Derives.call
  rw [hg]
  exact .andNotFail (one_none hc hm)

theorem not_nil {rule : Rule} {chs : List Char} {p : Exp Rule} (hg : grammar rule = .andNot (.oneOf chs) p) : parseRule rule [] = none := by
  apply derives_iff.mp
  apply Derives.call
  rw [hg]
  exact .andNotFail one_nil

theorem not_some {rule : Rule} {chs : List Char} {p : Exp Rule} (hg : grammar rule = .andNot (.oneOf chs) p)
    {cs m r : List Char} (hc : ',' ∉ cs) (h : parseRule rule cs = some (m, r)) :
    ∃ c ∈ chs, m = [c] ∧ cs = c :: r ∧ ∀ x ∈ altCalls p, parseRule x r = none := by
  have hd := call_inv (derives_iff.mpr h)
  rw [hg] at hd
  obtain ⟨h1, h2⟩ := andNot_inv hd
  cases h1 with
  | @oneOfYes _ k c t hk hcc hm =>
    cases k with
    | nil => exact ⟨c, hm, rfl, rfl, altCalls_fail h2⟩
    | cons a k => exact absurd (hk a (by simp)) (by rintro rfl; simp at hc)

theorem not_block {rule : Rule} {chs : List Char} {p : Exp Rule} (hg : grammar rule = .andNot (.oneOf chs) p)
    {c : Char} {t : List Char} (hc : c ≠ ',') {x} (hp : Derives grammar p t (some x)) : parseRule rule (c :: t) = none := by
  by_cases hm : c ∈ chs
  · apply derives_iff.mp
    apply Derives.call
    rw [hg]
    exact .andNotNo (one_cons hc hm) hp
  · exact not_other hg hc hm

def vowelSet : List Char := c!"aAeEiIoOuUyY"

theorem vowel_body : grammar .vowel = .andNot (.oneOf vowelSet) (.call .nucleus) := rfl

theorem nucleus_nil : parseRule .nucleus [] = none := by decide +kernel

/-- A vowel not followed by one. -/
theorem nucleus_one {c : Char} {t : List Char} (hc : c ∈ vowelSet) (ht : parseRule .nucleus t = none) :
    parseRule .nucleus (c :: t) = some ([c], t) := by
  have hcc : ∀ c ∈ vowelSet, c ≠ ',' := by decide
  apply derives_iff.mp
  apply Derives.call
  refine .altL (derives_iff.mpr (not_cons vowel_body rfl (hcc c hc) hc ?_))
  intro r hr
  simp [altCalls] at hr
  subst hr
  exact ht

def pairs : List (List Char × List Char) := [(c!"aA", c!"iuIU"), (c!"eoEO", c!"iI")]

/-- A diphthong not followed by a vowel. -/
theorem nucleus_two {c d : Char} {t : List Char} (hp : ∃ p ∈ pairs, c ∈ p.1 ∧ d ∈ p.2) (ht : parseRule .nucleus t = none) :
    parseRule .nucleus (c :: d :: t) = some ([c, d], t) := by
  have hcc : ∀ p ∈ pairs, (∀ c ∈ p.1, c ≠ ',') ∧ ∀ d ∈ p.2, d ≠ ',' ∧ d ∈ vowelSet := by decide
  obtain ⟨p, hp, hc, hd⟩ := hp
  have c1 := (hcc p hp).1 c hc
  have c2 := (hcc p hp).2 d hd
  have h1 := nucleus_one c2.2 ht
  apply derives_iff.mp
  apply Derives.call
  refine .altR (derives_iff.mpr (not_block vowel_body c1 (derives_iff.mpr h1))) (.altL (.call ?_))
  refine .andNotYes (rest := t) ?_ (derives_iff.mpr ht)
  have call : ∀ {rule : Rule} {chs : List Char} {c : Char} {t : List Char}, grammar rule = .oneOf chs → c ≠ ',' → c ∈ chs →
      Derives grammar (.call rule) (c :: t) (some ([c], t)) := by
    intro rule chs c t hg hc hm
    apply Derives.call
    rw [hg]
    exact one_cons hc hm
  have callN : ∀ {rule : Rule} {chs : List Char} {c : Char} {t : List Char}, grammar rule = .oneOf chs → c ≠ ',' → c ∉ chs →
      Derives grammar (.call rule) (c :: t) none := by
    intro rule chs c t hg hc hm
    apply Derives.call
    rw [hg]
    exact one_none hc hm
  simp only [pairs, List.mem_cons, List.not_mem_nil, or_false] at hp
  rcases hp with rfl | rfl
  · refine .altL (.seqGo (m := [c]) (rest := d :: t) (res := some ([d], t)) (call (rule := .a) rfl c1 hc) ?_)
    by_cases hi : d ∈ c!"iI"
    · exact .altL (call (rule := .i) rfl c2.1 hi)
    · refine .altR (callN (rule := .i) rfl c2.1 hi) (call (rule := .u) rfl c2.1 ?_)
      revert hi hd
      clear c2 h1
      revert d
      decide
  · have hna : ∀ c ∈ c!"eoEO", c ∉ c!"aA" := by decide
    refine .altR (.seqFail (callN (rule := .a) rfl c1 (hna c hc))) ?_
    refine .seqGo (m := [c]) (rest := d :: t) (res := some ([d], t)) ?_ (call (rule := .i) rfl c2.1 hd)
    by_cases hi : c ∈ c!"eE"
    · exact .altL (call (rule := .e) rfl c1 hi)
    · refine .altR (callN (rule := .e) rfl c1 hi) (call (rule := .o) rfl c1 ?_)
      revert hi hc
      clear c1 h1
      revert c
      decide

/-- What a match of `nucleus` leaves is no vowel. -/
theorem nucleus_end {cs m r : List Char} (h : parseRule .nucleus cs = some (m, r)) : parseRule .nucleus r = none := by
  have h := call_inv (derives_iff.mpr h)
  rcases alt_inv h with h | ⟨_, h⟩
  · exact derives_iff.mp (andNot_inv (call_inv h)).2
  · rcases alt_inv h with h | ⟨_, h⟩
    · exact derives_iff.mp (andNot_inv (call_inv h)).2
    · exact derives_iff.mp (andNot_inv h).2

theorem group_cases {g : List Char} (h : VowelGroup g) : (∃ v ∈ vowelSet, g = [v]) ∨ (∃ v w, (∃ p ∈ pairs, v ∈ p.1 ∧ w ∈ p.2) ∧ g = [v, w]) := by
  have h1 : ∀ v ∈ c!"aeiouyAEIOUY", v ∈ vowelSet := by decide
  rcases h with ⟨v, hv, rfl⟩ | ⟨v, hv, w, hw, rfl⟩ | ⟨v, hv, w, hw, rfl⟩
  · exact .inl ⟨v, h1 v hv, rfl⟩
  · exact .inr ⟨v, w, ⟨(c!"aA", c!"iuIU"), by simp [pairs], hv, hw⟩, rfl⟩
  · exact .inr ⟨v, w, ⟨(c!"eoEO", c!"iI"), by simp [pairs], hv, hw⟩, rfl⟩

theorem nucleus_group {g t : List Char} (hg : VowelGroup g) (ht : parseRule .nucleus t = none) : parseRule .nucleus (g ++ t) = some (g, t) := by
  rcases group_cases hg with ⟨v, hv, rfl⟩ | ⟨v, w, hp, rfl⟩
  · exact nucleus_one hv ht
  · exact nucleus_two hp ht

/-- No vowel group: something else first, or a glide. -/
theorem nucleus_no {cs : List Char} (hc : ',' ∉ cs) (h : ∀ g t, VowelGroup g → cs = g ++ t → parseRule .nucleus t ≠ none) : parseRule .nucleus cs = none := by
  cases hp : parseRule .nucleus cs with
  | none => rfl
  | some x =>
    obtain ⟨m, r⟩ := x
    have e := parseRule_append hp
    have hm : noCommas m = m := by
      have : ',' ∉ m := by rw [← e] at hc; intro h; exact hc (by simp [h])
      unfold noCommas
      rw [List.filter_eq_self]
      intro a ha
      simp
      rintro rfl
      exact this ha
    have hg := nucleus_inv hp
    rw [hm] at hg
    exact absurd (nucleus_end hp) (h m r hg e.symm)

/-! ### What the rules answer on a sequence of sounds -/

def text (s : List Sound) : List Char := s.flatMap Sound.letters

@[simp] theorem text_nil : text [] = [] := rfl
@[simp] theorem text_cons (x : Sound) (s : List Sound) : text (x :: s) = x.letters ++ text s := by simp [text]
@[simp] theorem text_append (a b : List Sound) : text (a ++ b) = text a ++ text b := by simp [text]

def isVowels : Sound → Bool
  | .vowels _ => true
  | _ => false
def isGlide : Sound → Bool
  | .glide _ => true
  | _ => false
def isQuote : Sound → Bool
  | .apostrophe _ => true
  | _ => false
def isDigit : Sound → Bool
  | .digit _ => true
  | _ => false
def isLetter (L : Rule) : Sound → Bool
  | .consonant c => (letterChars L).contains c
  | _ => false

/-- The first sound is taken if it is of the kind. -/
def out (k : Sound → Bool) : List Sound → Res
  | [] => none
  | x :: s => if k x then some (x.letters, text s) else none

/-- What may come after a sound. -/
def Next (x : Sound) : List Sound → Prop
  | [] => isGlide x = false ∧ isQuote x = false
  | y :: _ => x.MayPrecede y

def Triple : List Sound → Prop
  | .consonant x :: .consonant y :: .consonant z :: _ => [lower x, lower y, lower z] ∉ forbiddenTriples
  | _ => True

def Good : List Sound → Prop
  | [] => True
  | x :: s => x.WellFormed ∧ Next x s ∧ Triple (x :: s) ∧ Good s

structure Reads (s : List Sound) : Prop where
  nucleus : parseRule .nucleus (text s) = out isVowels s
  glide : parseRule .glide (text s) = out isGlide s
  h : parseRule .h (text s) = out isQuote s
  digit : parseRule .digit (text s) = out isDigit s
  letter : ∀ L ∈ letterRules, parseRule L (text s) = out (isLetter L) s

theorem glide_body : grammar .glide = .andPeek (.oneOf c!"iIuU") (.call .nucleus) := rfl
theorem h_body : grammar .h = .andPeek (.oneOf c!"'h") (.call .nucleus) := rfl
theorem digit_body : grammar .digit = .andNot (.oneOf c!"0123456789") (.alt (.call .h) (.call .nucleus)) := rfl

theorem letters_consonant : ∀ L ∈ letterRules, ∀ c ∈ letterChars L, c ∈ allConsonants := by decide +kernel
theorem consonants_letter : ∀ c ∈ allConsonants, ∃ L ∈ letterRules, c ∈ letterChars L := by decide +kernel
theorem letter_alts : ∀ L ∈ letterRules, isAlts (letterBlock L) = true ∧ .h ∈ altCalls (letterBlock L) ∧ .glide ∈ altCalls (letterBlock L) ∧
    ∀ r ∈ altCalls (letterBlock L), r = .h ∨ r = .glide ∨ r ∈ letterRules ∨
      ((r = .voiced ∨ r = .unvoiced) ∧ isAlts (grammar r) = true ∧
        ∀ q ∈ altCalls (grammar r), q ∈ letterRules ∧ q ∈ blockers (letterBlock L)) ∨ (r = .affricate ∧ L = .n) := by
  decide +kernel
theorem alts_blockers : ∀ {e : Exp Rule}, ∀ r ∈ altCalls e, r ∈ blockers e := by
  intro e r h
  simp only [blockers, List.mem_flatMap]
  exact ⟨r, h, by simp⟩
theorem pair_table' : ∀ X ∈ letterRules, ∀ Y ∈ letterRules, Y ∈ blockers (letterBlock X) → (X = .n → Y = .n) →
    ∀ x ∈ letterChars X, ∀ y ∈ letterChars Y, ¬ PermissiblePair (lower x) (lower y) := by
  decide +kernel

theorem kinds : (∀ c ∈ vowelSet, c ≠ ',' ∧ c ∉ c!"'h" ∧ c ∉ c!"0123456789" ∧ c ∉ allConsonants) ∧
    (∀ c ∈ c!"'h", c ≠ ',' ∧ c ∉ vowelSet ∧ c ∉ c!"iIuU" ∧ c ∉ c!"0123456789" ∧ c ∉ allConsonants) ∧
    (∀ c ∈ c!"0123456789", c ≠ ',' ∧ c ∉ vowelSet ∧ c ∉ c!"iIuU" ∧ c ∉ c!"'h" ∧ c ∉ allConsonants) ∧
    (∀ c ∈ allConsonants, c ≠ ',' ∧ c ∉ vowelSet ∧ c ∉ c!"iIuU" ∧ c ∉ c!"'h" ∧ c ∉ c!"0123456789") ∧
    (∀ c ∈ c!"iuIU", c ∈ vowelSet ∧ c ∈ c!"iIuU" ∧ ∀ p ∈ pairs, c ∉ p.1) ∧
    (∀ p ∈ pairs, ∀ c ∈ p.1, c ∈ vowelSet ∧ c ∉ c!"iIuU") ∧ (∀ p ∈ pairs, ∀ c ∈ p.2, c ∈ vowelSet) := by
  refine ⟨?_, ?_, ?_, ?_, ?_, ?_, ?_⟩ <;> decide +kernel

theorem group_mem {g : List Char} (h : VowelGroup g) : ∀ c ∈ g, c ∈ vowelSet := by
  obtain ⟨_, _, _, _, _, k6, k7⟩ := kinds
  rcases group_cases h with ⟨v, hv, rfl⟩ | ⟨v, w, ⟨p, hp, h1, h2⟩, rfl⟩
  · simpa using hv
  · simp only [List.mem_cons, List.not_mem_nil, or_false]
    rintro c (rfl | rfl)
    · exact (k6 p hp _ h1).1
    · exact k7 p hp _ h2

theorem group_ne {g : List Char} (h : VowelGroup g) : ∃ c t, g = c :: t := by
  rcases group_cases h with ⟨v, hv, rfl⟩ | ⟨v, w, _, rfl⟩ <;> exact ⟨_, _, rfl⟩

theorem nucleus_other {c : Char} {t : List Char} (hc : c ∉ vowelSet) : parseRule .nucleus (c :: t) = none ∨ c = ',' := by
  by_cases h : c = ','
  · exact .inr h
  · left
    cases hp : parseRule .nucleus (c :: t) with
    | none => rfl
    | some x =>
      obtain ⟨v, t', hv, e⟩ := nucleus_first hp
      have : noCommas (c :: t) = c :: noCommas t := by simp [noCommas, h]
      rw [this] at e
      cases e
      exact absurd hv hc

theorem letters_ok {x : Sound} (h : x.WellFormed) : ',' ∉ x.letters := by
  obtain ⟨k1, k2, k3, k4, k5, _⟩ := kinds
  cases x with
  | vowels g => intro hm; exact (k1 _ (group_mem h _ hm)).1 rfl
  | glide c => intro hm; simp [Sound.letters] at hm; subst hm; exact (k1 _ (k5 _ h).1).1 rfl
  | apostrophe c => intro hm; simp [Sound.letters] at hm; subst hm; exact (k2 _ h).1 rfl
  | consonant c => intro hm; simp [Sound.letters] at hm; subst hm; exact (k4 _ h).1 rfl
  | digit c => intro hm; simp [Sound.letters] at hm; subst hm; exact (k3 _ h).1 rfl

theorem good_text : ∀ {s : List Sound}, Good s → ',' ∉ text s
  | [], _ => by simp
  | x :: s, ⟨h1, _, _, h4⟩ => by
    have := good_text h4
    have := letters_ok h1
    simp_all

theorem out_head {k : Sound → Bool} {s : List Sound} (h : ∀ y t, s = y :: t → k y = false) : out k s = none := by
  cases s with
  | nil => rfl
  | cons y t => simp [out, h y t rfl]

theorem reads_nil : Reads [] where
  nucleus := nucleus_nil
  glide := peek_nil glide_body
  h := peek_nil h_body
  digit := not_nil digit_body
  letter L hL := not_nil (letter_body L hL)

theorem aff1 : ∀ c ∈ letterChars .n, ∀ a ∈ letterChars .t, (∀ b ∈ letterChars .c, [lower c, lower a, lower b] ∈ forbiddenTriples) ∧
    ∀ b ∈ letterChars .s, [lower c, lower a, lower b] ∈ forbiddenTriples := by decide +kernel
theorem aff2 : ∀ c ∈ letterChars .n, ∀ a ∈ letterChars .d, (∀ b ∈ letterChars .j, [lower c, lower a, lower b] ∈ forbiddenTriples) ∧
    ∀ b ∈ letterChars .z, [lower c, lower a, lower b] ∈ forbiddenTriples := by decide +kernel

theorem reads {s : List Sound} : Good s → Reads s := by
  obtain ⟨k1, k2, k3, k4, k5, k6, k7⟩ := kinds
  have hsub : ∀ c ∈ c!"iIuU", c ∈ c!"iuIU" := by decide
  match s with
  | [] => intro _; exact reads_nil
  | x :: s =>
    rintro ⟨hw, hn, ht, hg⟩
    have ih := reads hg
    have hcm := good_text hg
    cases x with
    | vowels g =>
      have hnv : parseRule .nucleus (text s) = none := by
        rw [ih.nucleus]
        apply out_head
        rintro y t rfl
        cases y <;> first | rfl | exact absurd hn (by simp [Next, Sound.MayPrecede])
      obtain ⟨c, u, rfl⟩ := group_ne hw
      have hc := group_mem hw c (by simp)
      obtain ⟨c1, c2, c3, c4⟩ := k1 c hc
      constructor
      · simpa [Sound.letters, out, isVowels] using nucleus_group hw hnv
      · simp only [text_cons, Sound.letters, List.cons_append, out, isGlide, Bool.false_eq_true, if_false]
        rw [peek_cons glide_body c1, if_neg]
        rintro ⟨hi, hp⟩
        rcases group_cases hw with ⟨v, hv, e⟩ | ⟨v, w, ⟨p, hpp, h1, h2⟩, e⟩
        · cases e; exact hp hnv
        · cases e; exact (k6 p hpp _ h1).2 hi
      · simp only [text_cons, Sound.letters, List.cons_append, out, isQuote, Bool.false_eq_true, if_false]
        rw [peek_cons h_body c1, if_neg]
        exact fun h => c2 h.1
      · simpa [Sound.letters, out, isDigit] using not_other digit_body c1 c3
      · intro L hL
        simpa [Sound.letters, out, isLetter] using not_other (letter_body L hL) c1 (fun h => c4 (letters_consonant L hL c h))
    | glide c =>
      have hnv : parseRule .nucleus (text s) ≠ none := by
        rw [ih.nucleus]
        match s, hn with
        | .vowels g :: s, _ => simp [out, isVowels]
      obtain ⟨i1, i2, i3⟩ := k5 c hw
      obtain ⟨c1, c2, c3, c4⟩ := k1 c i1
      constructor
      · simp only [text_cons, Sound.letters, List.cons_append, List.nil_append, out, isVowels, Bool.false_eq_true, if_false]
        apply nucleus_no (by simp [hcm, Ne.symm c1])
        intro g t hg' e
        rcases group_cases hg' with ⟨v, hv, rfl⟩ | ⟨v, w, ⟨p, hpp, h1, h2⟩, rfl⟩
        · cases e; exact hnv
        · have : c = v := by simpa using (List.cons.inj e).1
          subst this; exact absurd h1 (i3 p hpp)
      · simp only [text_cons, Sound.letters, List.cons_append, List.nil_append, out, isGlide, if_true]
        rw [peek_cons glide_body c1, if_pos ⟨i2, hnv⟩]
      · simp only [text_cons, Sound.letters, List.cons_append, List.nil_append, out, isQuote, Bool.false_eq_true, if_false]
        rw [peek_cons h_body c1, if_neg]
        exact fun h => c2 h.1
      · simpa [Sound.letters, out, isDigit] using not_other digit_body c1 c3
      · intro L hL
        simpa [Sound.letters, out, isLetter] using not_other (letter_body L hL) c1 (fun h => c4 (letters_consonant L hL c h))
    | apostrophe c =>
      have hnv : parseRule .nucleus (text s) ≠ none := by
        rw [ih.nucleus]
        match s, hn with
        | .vowels g :: s, _ => simp [out, isVowels]
      obtain ⟨c1, c2, c3, c4, c5⟩ := k2 c hw
      constructor
      · simpa [Sound.letters, out, isVowels] using (nucleus_other c2).resolve_right c1
      · simp only [text_cons, Sound.letters, List.cons_append, List.nil_append, out, isGlide, Bool.false_eq_true, if_false]
        rw [peek_cons glide_body c1, if_neg]
        exact fun h => c3 h.1
      · simp only [text_cons, Sound.letters, List.cons_append, List.nil_append, out, isQuote, if_true]
        rw [peek_cons h_body c1, if_pos ⟨hw, hnv⟩]
      · simpa [Sound.letters, out, isDigit] using not_other digit_body c1 c4
      · intro L hL
        simpa [Sound.letters, out, isLetter] using not_other (letter_body L hL) c1 (fun h => c5 (letters_consonant L hL c h))
    | digit c =>
      obtain ⟨c1, c2, c3, c4, c5⟩ := k3 c hw
      constructor
      · simpa [Sound.letters, out, isVowels] using (nucleus_other c2).resolve_right c1
      · simp only [text_cons, Sound.letters, List.cons_append, List.nil_append, out, isGlide, Bool.false_eq_true, if_false]
        rw [peek_cons glide_body c1, if_neg]
        exact fun h => c3 h.1
      · simp only [text_cons, Sound.letters, List.cons_append, List.nil_append, out, isQuote, Bool.false_eq_true, if_false]
        rw [peek_cons h_body c1, if_neg]
        exact fun h => c4 h.1
      · simp only [text_cons, Sound.letters, List.cons_append, List.nil_append, out, isDigit, if_true]
        apply not_cons digit_body rfl c1 hw
        intro r hr
        simp only [altCalls, List.cons_append, List.nil_append, List.mem_cons, List.not_mem_nil, or_false] at hr
        rcases hr with rfl | rfl
        · rw [ih.h]
          apply out_head
          rintro y t rfl
          cases y <;> first | rfl | exact absurd hn (by simp [Next, Sound.MayPrecede])
        · rw [ih.nucleus]
          apply out_head
          rintro y t rfl
          cases y <;> first | rfl | exact absurd hn (by simp [Next, Sound.MayPrecede])
      · intro L hL
        simpa [Sound.letters, out, isLetter] using not_other (letter_body L hL) c1 (fun h => c5 (letters_consonant L hL c h))
    | consonant c =>
      obtain ⟨c1, c2, c3, c4, c5⟩ := k4 c hw
      constructor
      · simpa [Sound.letters, out, isVowels] using (nucleus_other c2).resolve_right c1
      · simp only [text_cons, Sound.letters, List.cons_append, List.nil_append, out, isGlide, Bool.false_eq_true, if_false]
        rw [peek_cons glide_body c1, if_neg]
        exact fun h => c3 h.1
      · simp only [text_cons, Sound.letters, List.cons_append, List.nil_append, out, isQuote, Bool.false_eq_true, if_false]
        rw [peek_cons h_body c1, if_neg]
        exact fun h => c4 h.1
      · simpa [Sound.letters, out, isDigit] using not_other digit_body c1 c5
      · intro L hL
        by_cases hm : c ∈ letterChars L
        · simp only [text_cons, Sound.letters, List.cons_append, List.nil_append, out, isLetter, List.contains_iff_mem, hm, if_true]
          obtain ⟨a1, _, _, a2⟩ := letter_alts L hL
          apply not_cons (letter_body L hL) a1 c1 hm
          have lett : ∀ r ∈ letterRules, r ∈ blockers (letterBlock L) → (L = .n → r = .n) → parseRule r (text s) = none := by
            intro r hr hb hx
            rw [ih.letter r hr]
            apply out_head
            rintro y t rfl
            cases y with
            | consonant d =>
              simp only [isLetter]
              rw [Bool.eq_false_iff]
              intro hd
              exact pair_table' L hL r hr hb hx c hm d (by simpa using hd) hn
            | _ => rfl
          have nb : L = .n → ∀ r ∈ altCalls (letterBlock L), r ∈ letterRules → r = .n := by
            rintro rfl; decide +kernel
          have nv : L = .n → ∀ r ∈ altCalls (letterBlock L), r ≠ .voiced ∧ r ≠ .unvoiced := by
            rintro rfl; decide +kernel
          intro r hr
          rcases a2 r hr with rfl | rfl | h | ⟨hv, h1, h2⟩ | ⟨rfl, rfl⟩
          · rw [ih.h]
            apply out_head
            rintro y t rfl
            cases y <;> first | rfl | exact absurd hn (by simp [Next, Sound.MayPrecede])
          · rw [ih.glide]
            apply out_head
            rintro y t rfl
            cases y <;> first | rfl | exact absurd hn (by simp [Next, Sound.MayPrecede])
          · exact lett r h (alts_blockers r hr) (fun e => nb e r hr h)
          · apply derives_iff.mp
            apply Derives.call
            refine alts_none h1 (fun q hq => lett q (h2 q hq).1 (h2 q hq).2 (fun e => ?_))
            have := nv e r hr
            exact absurd hv (by simp [this.1, this.2])
          · -- the affricates after n
            have aff : ∀ A B C : Rule, A ∈ letterRules → B ∈ letterRules → C ∈ letterRules →
                (∀ a ∈ letterChars A, (∀ b ∈ letterChars B, [lower c, lower a, lower b] ∈ forbiddenTriples) ∧
                  ∀ b ∈ letterChars C, [lower c, lower a, lower b] ∈ forbiddenTriples) →
                Derives grammar (.seq (.call A) (.alt (.call B) (.call C))) (text s) none := by
              intro A B C hA hB hC hbad
              cases hpa : parseRule A (text s) with
              | none => exact .seqFail (derives_iff.mpr hpa)
              | some v =>
                rw [ih.letter A hA] at hpa
                match s, hg with
                | [], _ => cases hpa
                | y :: s', ⟨_, _, _, hg'⟩ =>
                  have ih' := reads hg'
                  cases y with
                  | consonant a =>
                    simp only [out, isLetter] at hpa
                    by_cases ha : a ∈ letterChars A
                    · clear hpa
                      have hpa' : parseRule A (text (.consonant a :: s')) = some ([a], text s') := by
                        rw [ih.letter A hA]; simp [out, isLetter, ha, Sound.letters]
                      refine .seqGo (res := none) (derives_iff.mpr hpa') (.altR (derives_iff.mpr ?_) (derives_iff.mpr ?_))
                      · rw [ih'.letter B hB]
                        apply out_head
                        rintro y t rfl
                        cases y with
                        | consonant b =>
                          simp only [isLetter]
                          rw [Bool.eq_false_iff]
                          intro hd
                          exact ht ((hbad a ha).1 b (by simpa using hd))
                        | _ => rfl
                      · rw [ih'.letter C hC]
                        apply out_head
                        rintro y t rfl
                        cases y with
                        | consonant b =>
                          simp only [isLetter]
                          rw [Bool.eq_false_iff]
                          intro hd
                          exact ht ((hbad a ha).2 b (by simpa using hd))
                        | _ => rfl
                    · simp [ha] at hpa
                  | _ => simp [out, isLetter] at hpa
            apply derives_iff.mp
            apply Derives.call
            refine .altR (aff .t .c .s (by decide) (by decide) (by decide) ?_) (aff .d .j .z (by decide) (by decide) (by decide) ?_)
            · exact aff1 c hm
            · exact aff2 c hm
        · simpa [Sound.letters, out, isLetter, hm] using not_other (letter_body L hL) c1 hm
termination_by s.length

/-! ### The rule for names -/

attribute [local irreducible] parseRule

def isConsonant : Sound → Bool
  | .consonant c => allConsonants.contains c
  | _ => false

/-- One round of the repetition. -/
def round : Exp Rule := .alt (.call .nucleus) (.alt (.call .glide) (.alt (.call .h) (.alt (.andNot (.call .consonant) .eof) (.call .digit))))

theorem cmevla_body : grammar .cmevla = .guardNot (.call .h) (.seq (.rep 0 round) (.seq (.call .consonant) .eof)) := rfl

theorem consonant_reads {s : List Sound} (hr : Reads s) : parseRule .consonant (text s) = out isConsonant s := by
  cases hc : parseRule .consonant (text s) with
  | some x =>
    obtain ⟨m, r⟩ := x
    obtain ⟨L, hL, hp⟩ := consonant_letter hc
    rw [hr.letter L hL] at hp
    cases s with
    | nil => cases hp
    | cons y t =>
      cases y with
      | consonant c =>
        simp only [out, isLetter] at hp
        by_cases hm : c ∈ letterChars L
        · simp only [List.contains_iff_mem, hm, if_true, Option.some.injEq, Prod.mk.injEq] at hp
          obtain ⟨rfl, rfl⟩ := hp
          simp [letters_consonant L hL c hm, Sound.letters, out, isConsonant]
        · simp [hm] at hp
      | _ => simp [out, isLetter] at hp
  | none =>
    cases s with
    | nil => rfl
    | cons y t =>
      cases y with
      | consonant c =>
        by_cases hm : c ∈ allConsonants
        · exfalso
          obtain ⟨L, hL, h⟩ := consonants_letter c hm
          have := hr.letter L hL
          simp only [out, isLetter, List.contains_iff_mem, h, if_true] at this
          rw [consonant_of_letter hL this] at hc
          cases hc
        · simp [hm, out, isConsonant]
      | _ => rfl

theorem good_suffix : ∀ {a b : List Sound}, Good (a ++ b) → Good b
  | [], _, h => h
  | _ :: _, _, ⟨_, _, _, h⟩ => good_suffix h

/-- Every sound but the last consonant is taken by the repetition. -/
theorem rounds {c : Char} : ∀ {s : List Sound}, Good (s ++ [.consonant c]) →
    Derives grammar (.rep 0 round) (text (s ++ [.consonant c])) (some (text s, [c]))
  | [], hg => by
    have hr := reads hg
    have hc := consonant_reads hr
    have hm : c ∈ allConsonants := hg.1
    simp only [List.nil_append, out, isConsonant, List.contains_iff_mem, hm, if_true] at hc
    have h1 := hr.nucleus
    have h2 := hr.glide
    have h3 := hr.h
    have h4 := hr.digit
    simp only [List.nil_append, out, isVowels, isGlide, isQuote, isDigit, Bool.false_eq_true, if_false] at h1 h2 h3 h4
    refine .repStop (.altR (derives_iff.mpr h1) (.altR (derives_iff.mpr h2) (.altR (derives_iff.mpr h3) (.altR ?_ (derives_iff.mpr h4)))))
    exact .andNotNo (derives_iff.mpr hc) .eofYes
  | x :: s, hg => by
    have hr := reads hg
    have hn := rounds hg.2.2.2
    have hc := consonant_reads hr
    have h1 := hr.nucleus
    have h2 := hr.glide
    have h3 := hr.h
    have h4 := hr.digit
    simp only [List.cons_append, out] at h1 h2 h3 h4 hc
    have step : Derives grammar round (text (x :: (s ++ [.consonant c]))) (some (x.letters, text (s ++ [.consonant c]))) := by
      cases x with
      | vowels g => exact .altL (derives_iff.mpr h1)
      | glide d => exact .altR (derives_iff.mpr h1) (.altL (derives_iff.mpr h2))
      | apostrophe d => exact .altR (derives_iff.mpr h1) (.altR (derives_iff.mpr h2) (.altL (derives_iff.mpr h3)))
      | digit d =>
        refine .altR (derives_iff.mpr h1) (.altR (derives_iff.mpr h2) (.altR (derives_iff.mpr h3) (.altR ?_ (derives_iff.mpr h4))))
        exact .andNotFail (derives_iff.mpr (by simpa [isConsonant] using hc))
      | consonant d =>
        refine .altR (derives_iff.mpr h1) (.altR (derives_iff.mpr h2) (.altR (derives_iff.mpr h3) (.altL ?_)))
        have hm : d ∈ allConsonants := hg.1
        simp only [isConsonant, List.contains_iff_mem, hm, if_true] at hc
        refine .andNotYes (derives_iff.mpr hc) ?_
        cases ht : text (s ++ [.consonant c]) with
        | nil => simp [Sound.letters] at ht
        | cons a b => exact .eofNo
    have := Derives.repStep (n := 0) step hn
    simpa [Res.prepend] using this

theorem complete {s : List Sound} {c : Char} (hg : Good (s ++ [.consonant c])) (hh : ∀ d, (s ++ [Sound.consonant c]).head? ≠ some (.apostrophe d)) :
    parseRule .cmevla (text (s ++ [.consonant c])) = some (text (s ++ [.consonant c]), []) := by
  apply derives_iff.mp
  apply Derives.call
  rw [cmevla_body]
  have hr := reads hg
  refine .guardGo (derives_iff.mpr ?_) ?_
  · rw [hr.h]
    apply out_head
    intro y t e
    cases y with
    | apostrophe d => exact absurd (by rw [e]; rfl) (hh d)
    | _ => rfl
  · have hl : Good [.consonant c] := good_suffix hg
    have hc := consonant_reads (reads hl)
    have hm : c ∈ allConsonants := hl.1
    simp only [out, isConsonant, List.contains_iff_mem, hm, if_true] at hc
    have := Derives.seqGo (rounds hg) (Derives.seqGo (derives_iff.mpr hc) .eofYes)
    simpa [Res.prepend, Sound.letters] using this

/-- One round adds a sound at the front. -/
theorem round_inv {cs m r : List Char} {s : List Sound} (hcs : ',' ∉ cs) (hg : Good s) (hr : r = text s)
    (h : Derives grammar round cs (some (m, r))) : ∃ x : Sound, x.letters = m ∧ Good (x :: s) := by
  subst hr
  have hrd := reads hg
  have hap := h.append_eq _ _ rfl
  have hm : ',' ∉ m := by rw [← hap] at hcs; intro h; exact hcs (by simp [h])
  have hmn : noCommas m = m := by
    unfold noCommas
    rw [List.filter_eq_self]
    intro a ha
    simp
    rintro rfl
    exact hm ha
  have one : ∀ {rule p : Rule} {chs : List Char}, grammar rule = .andPeek (.oneOf chs) (.call p) → parseRule rule cs = some (m, text s) →
      ∃ c ∈ chs, m = [c] ∧ parseRule p (text s) ≠ none := by
    intro rule p chs hgr hp
    cases cs with
    | nil => rw [peek_nil hgr] at hp; cases hp
    | cons a t =>
      have ha : a ≠ ',' := by rintro rfl; simp at hcs
      rw [peek_cons hgr ha] at hp
      split at hp
      · rename_i h1
        simp only [Option.some.injEq, Prod.mk.injEq] at hp
        obtain ⟨rfl, rfl⟩ := hp
        exact ⟨a, h1.1, rfl, h1.2⟩
      · cases hp
  have vow : parseRule .nucleus (text s) ≠ none → ∃ g t, s = .vowels g :: t := by
    rw [hrd.nucleus]
    intro hne
    match s with
    | [] => exact absurd rfl hne
    | .vowels g :: t => exact ⟨g, t, rfl⟩
    | .glide _ :: t | .apostrophe _ :: t | .consonant _ :: t | .digit _ :: t => simp [out, isVowels] at hne
  have hsub : ∀ c ∈ c!"iIuU", c ∈ c!"iuIU" := by decide
  rcases alt_inv h with h | ⟨_, h⟩
  · -- a vowel group
    have hp := derives_iff.mp h
    have hv := nucleus_inv hp
    rw [hmn] at hv
    refine ⟨.vowels m, rfl, hv, ?_, trivial, hg⟩
    have he := nucleus_end hp
    rw [hrd.nucleus] at he
    match s with
    | [] => exact ⟨rfl, rfl⟩
    | .vowels g :: t => simp [out, isVowels] at he
    | .glide _ :: t | .apostrophe _ :: t | .consonant _ :: t | .digit _ :: t => trivial
  rcases alt_inv h with h | ⟨_, h⟩
  · obtain ⟨c, hc, rfl, hne⟩ := one glide_body (derives_iff.mp h)
    obtain ⟨g, t, rfl⟩ := vow hne
    exact ⟨.glide c, rfl, hsub c hc, trivial, trivial, hg⟩
  rcases alt_inv h with h | ⟨_, h⟩
  · obtain ⟨c, hc, rfl, hne⟩ := one h_body (derives_iff.mp h)
    obtain ⟨g, t, rfl⟩ := vow hne
    exact ⟨.apostrophe c, rfl, hc, trivial, trivial, hg⟩
  rcases alt_inv h with h | ⟨_, h⟩
  · obtain ⟨L, hL, hp⟩ := consonant_letter (derives_iff.mp (andNot_inv h).1)
    obtain ⟨c, hc, rfl, _, hb⟩ := not_some (letter_body L hL) hcs hp
    obtain ⟨_, ah, ag, _⟩ := letter_alts L hL
    have hd := (andNot_inv (by have := call_inv (derives_iff.mpr hp); rw [letter_body L hL] at this; exact this)).2
    have hbl := blockers_fail hd
    have hh := hb _ ah
    have hgl := hb _ ag
    rw [hrd.h] at hh
    rw [hrd.glide] at hgl
    refine ⟨.consonant c, rfl, letters_consonant L hL c hc, ?_, ?_, hg⟩
    · match s with
      | [] => exact ⟨rfl, rfl⟩
      | .vowels _ :: t => trivial
      | .digit _ :: t => trivial
      | .glide _ :: t => simp [out, isGlide] at hgl
      | .apostrophe _ :: t => simp [out, isQuote] at hh
      | .consonant d :: t =>
        obtain ⟨D, hD, hdm⟩ := consonants_letter d hg.1
        refine pair_table L hL D hD (fun hb => ?_) c hc d hdm
        have := hbl D hb
        rw [hrd.letter D hD] at this
        simp [out, isLetter, hdm] at this
    · match s with
      | [] => trivial
      | .vowels _ :: t | .digit _ :: t | .glide _ :: t | .apostrophe _ :: t => trivial
      | [.consonant d] => trivial
      | .consonant _ :: .vowels _ :: t | .consonant _ :: .digit _ :: t | .consonant _ :: .glide _ :: t | .consonant _ :: .apostrophe _ :: t => trivial
      | .consonant d :: .consonant e :: t =>
        intro hbad
        have hrd' := reads hg.2.2.2
        obtain ⟨D, hD, hdm⟩ := consonants_letter d hg.1
        obtain ⟨E, hE, hem⟩ := consonants_letter e hg.2.2.2.1
        have hpD := hrd.letter D hD
        have hpE := hrd'.letter E hE
        simp only [out, isLetter, List.contains_iff_mem, hdm, hem, if_true] at hpD hpE
        simp only [forbiddenTriples, List.mem_cons, List.cons.injEq, and_true, List.not_mem_nil, or_false] at hbad
        have hn : lower c = 'n' := by rcases hbad with h | h | h | h <;> exact h.1
        obtain rfl := (n_only L hL).1 c hc hn
        have haff : parseRule .affricate (text (.consonant d :: .consonant e :: t)) = none := hbl .affricate (by decide +kernel)
        have haf := affricate_fail (m := [d]) (r := text (.consonant e :: t)) haff
        obtain ⟨_, ft, fd, fc, fs, fj, fz⟩ := n_only D hD
        obtain ⟨_, _, _, gc, gs, gj, gz⟩ := n_only E hE
        rcases hbad with ⟨_, h2, h3⟩ | ⟨_, h2, h3⟩ | ⟨_, h2, h3⟩ | ⟨_, h2, h3⟩
        · obtain rfl := fd d hdm h2; obtain rfl := gj e hem h3; rw [(haf.2 hpD).1] at hpE; cases hpE
        · obtain rfl := fd d hdm h2; obtain rfl := gz e hem h3; rw [(haf.2 hpD).2] at hpE; cases hpE
        · obtain rfl := ft d hdm h2; obtain rfl := gc e hem h3; rw [(haf.1 hpD).1] at hpE; cases hpE
        · obtain rfl := ft d hdm h2; obtain rfl := gs e hem h3; rw [(haf.1 hpD).2] at hpE; cases hpE
  · -- a digit
    obtain ⟨c, hc, rfl, _, hb⟩ := not_some digit_body hcs (derives_iff.mp h)
    have hh := hb .h (by decide)
    have hnu := hb .nucleus (by decide)
    rw [hrd.h] at hh
    rw [hrd.nucleus] at hnu
    refine ⟨.digit c, rfl, hc, ?_, trivial, hg⟩
    match s with
    | [] => exact ⟨rfl, rfl⟩
    | .vowels _ :: t => simp [out, isVowels] at hnu
    | .apostrophe _ :: t => simp [out, isQuote] at hh
    | .digit _ :: t => trivial
    | .glide _ :: t => trivial
    | .consonant d :: t => trivial

theorem rounds_inv {x : Exp Rule} {cs : List Char} {res : Res} (h : Derives grammar x cs res) : x = .rep 0 round → ',' ∉ cs →
    ∀ m r, res = some (m, r) → ∀ s, Good s → r = text s → ∃ a, m = text a ∧ Good (a ++ s) := by
  induction h with
  | repStop _ => intro _ _ m r h s hg hr; cases h; exact ⟨[], rfl, hg⟩
  | @repStep n e cs m1 rest res h1 h2 _ ih =>
    intro hx hcs m r hres s hg hr
    cases hx
    obtain ⟨m2, h3, rfl⟩ := Res.prepend_some hres
    subst h3
    have hap := h1.append_eq _ _ rfl
    have hrest : ',' ∉ rest := by rw [← hap] at hcs; intro h; exact hcs (by simp [h])
    obtain ⟨a, rfl, hga⟩ := ih rfl hrest _ _ rfl s hg hr
    have hap2 := h2.append_eq _ _ rfl
    have hrs : rest = text (a ++ s) := by rw [text_append, ← hap2, hr]
    obtain ⟨x, rfl, hgx⟩ := round_inv hcs hga hrs h1
    exact ⟨x :: a, by simp, hgx⟩
  | _ => intro hx; cases hx

theorem sound {cs : List Char} (hcs : ',' ∉ cs) (h : parseRule .cmevla cs = some (cs, [])) :
    ∃ a c, cs = text (a ++ [.consonant c]) ∧ Good (a ++ [.consonant c]) ∧ ∀ d, (a ++ [Sound.consonant c]).head? ≠ some (.apostrophe d) := by
  have hd := call_inv (derives_iff.mpr h)
  rw [cmevla_body] at hd
  generalize hres : (some (cs, []) : Res) = res at hd
  cases hd with
  | guardBlock _ => cases hres
  | guardGo hh hd =>
    subst hres
    obtain ⟨m1, r1, m2, h1, h2, e⟩ := seq_inv hd
    obtain ⟨m3, r3, m4, h3, h4, rfl⟩ := seq_inv h2
    generalize hr4 : (some (m4, []) : Res) = res at h4
    cases h4 with
    | eofNo => cases hr4
    | eofYes =>
      cases hr4
      obtain ⟨k, c, hk, hc, hc', rfl, er⟩ := oneLetter (rule := .consonant) rfl (derives_iff.mp h3)
      have hkn : k = [] := by
        cases k with
        | nil => rfl
        | cons a k =>
          exfalso
          apply hcs
          rw [e]
          have := hk a (by simp)
          subst this
          simp
      subst hkn
      have hgc : Good [.consonant c] := ⟨hc, ⟨rfl, rfl⟩, trivial, trivial⟩
      obtain ⟨a, rfl, hga⟩ := rounds_inv h1 rfl hcs _ _ rfl _ hgc (by simpa [Sound.letters] using er)
      have et : cs = text (a ++ [.consonant c]) := by simpa [Sound.letters] using e
      refine ⟨a, c, et, hga, fun d hd => ?_⟩
      have hr := (reads hga).h
      rw [← et, derives_iff.mp hh] at hr
      cases hx : a ++ [Sound.consonant c] with
      | nil => simp at hx
      | cons y t =>
        rw [hx] at hd hr
        simp only [List.head?_cons, Option.some.injEq] at hd
        subst hd
        simp [out, isQuote] at hr

/-! ### Good sequences -/

theorem good_iff {s : List Sound} (hl : ∃ c, s.getLast? = some (.consonant c)) : Good s ↔
    (∀ x ∈ s, x.WellFormed) ∧ (∀ a x y b, s = a ++ x :: y :: b → x.MayPrecede y) ∧
    (∀ a x y z b, s = a ++ .consonant x :: .consonant y :: .consonant z :: b → [lower x, lower y, lower z] ∉ forbiddenTriples) := by
  induction s with
  | nil => simp at hl
  | cons x s ih =>
    by_cases hs : s = []
    · subst hs
      obtain ⟨c, hc⟩ := hl
      simp at hc
      subst hc
      constructor
      · intro h
        refine ⟨by simpa using h.1, ?_, ?_⟩
        · intro a x y b e
          have := congrArg List.length e
          simp at this
          omega
        · intro a x y z b e
          have := congrArg List.length e
          simp at this
          omega
      · intro h
        exact ⟨h.1 _ (by simp), ⟨rfl, rfl⟩, trivial, trivial⟩
    · have hl' : ∃ c, s.getLast? = some (.consonant c) := by
        obtain ⟨c, hc⟩ := hl
        refine ⟨c, ?_⟩
        rw [← hc]
        cases s with
        | nil => exact absurd rfl hs
        | cons y t => simp [List.getLast?_cons]
      have ih := ih hl'
      constructor
      · rintro ⟨h1, h2, h3, h4⟩
        obtain ⟨i1, i2, i3⟩ := ih.mp h4
        refine ⟨by simpa using ⟨h1, i1⟩, ?_, ?_⟩
        · intro a x' y b e
          cases a with
          | nil =>
            simp only [List.nil_append, List.cons.injEq] at e
            obtain ⟨rfl, rfl⟩ := e
            exact h2
          | cons z a =>
            simp only [List.cons_append, List.cons.injEq] at e
            exact i2 a x' y b e.2
        · intro a x' y z b e
          cases a with
          | nil =>
            simp only [List.nil_append, List.cons.injEq] at e
            obtain ⟨rfl, rfl⟩ := e
            exact h3
          | cons w a =>
            simp only [List.cons_append, List.cons.injEq] at e
            exact i3 a x' y z b e.2
      · rintro ⟨h1, h2, h3⟩
        refine ⟨h1 _ (by simp), ?_, ?_, ih.mpr ⟨fun y hy => h1 y (by simp [hy]), fun a x' y b e => h2 (x :: a) x' y b (by simp [e]),
          fun a x' y z b e => h3 (x :: a) x' y z b (by simp [e])⟩⟩
        · cases s with
          | nil => exact absurd rfl hs
          | cons y t => exact h2 [] x y t rfl
        · unfold Triple
          split
          · rename_i x y z t e
            exact h3 [] x y z t (by simpa using e)
          · trivial

/-- A text without commas is matched by the rule for names if and only if it has the form of one. -/
theorem name_iff {cs : List Char} (hcs : ',' ∉ cs) : parseRule .cmevla cs = some (cs, []) ↔ NameForm cs := by
  constructor
  · intro h
    obtain ⟨a, c, e, hg, hh⟩ := sound hcs h
    have hl : ∃ d, (a ++ [Sound.consonant c]).getLast? = some (.consonant d) := ⟨c, by simp⟩
    obtain ⟨h1, h2, h3⟩ := (good_iff hl).mp hg
    exact ⟨_, ⟨h1, h2, h3, hh, hl⟩, e⟩
  · rintro ⟨s, ⟨h1, h2, h3, hh, hl⟩, e⟩
    have hg := (good_iff hl).mpr ⟨h1, h2, h3⟩
    obtain ⟨c, hc⟩ := hl
    obtain ⟨a, rfl⟩ := List.getLast?_eq_some_iff.mp hc
    have e : cs = text (a ++ [.consonant c]) := e
    rw [e]
    exact complete hg hh

/-- Texts without commas have one reading at most. -/
theorem unique : ∀ {s t : List Sound}, Good s → Good t → text s = text t → s = t
  | [], [], _, _, _ => rfl
  | [], y :: t, _, h, e => by
    exfalso
    cases y with
    | vowels g => obtain ⟨c, u, rfl⟩ := group_ne h.1; simp [Sound.letters] at e
    | _ => simp [Sound.letters] at e
  | x :: s, [], h, _, e => by
    exfalso
    cases x with
    | vowels g => obtain ⟨c, u, rfl⟩ := group_ne h.1; simp [Sound.letters] at e
    | _ => simp [Sound.letters] at e
  | x :: s, y :: t, hs, ht, e => by
    have r1 := reads hs
    have r2 := reads ht
    have en := r1.nucleus.symm.trans (e ▸ r2.nucleus)
    have eg := r1.glide.symm.trans (e ▸ r2.glide)
    have eh := r1.h.symm.trans (e ▸ r2.h)
    have ed := r1.digit.symm.trans (e ▸ r2.digit)
    have ec := (consonant_reads r1).symm.trans (e ▸ consonant_reads r2)
    simp only [out] at en eg eh ed ec
    have key : x = y ∧ text s = text t := by
      cases x <;> cases y <;> simp_all [isVowels, isGlide, isQuote, isDigit, Sound.letters]
      all_goals first
        | (have := hs.1; have := ht.1; simp_all [Sound.WellFormed, IsConsonantLetter, allConsonants]; done)
        | skip
    rw [key.1, unique hs.2.2.2 ht.2.2.2 key.2]

end Names

end Sneturfahi
