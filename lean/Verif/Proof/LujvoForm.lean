import Verif.Proof.LujvoWhole
import Verif.Spec.Lujvo

/-!
# From letters to sounds
-/

namespace Sneturfahi.Lj

set_option linter.constructorNameAsVariable false

open Derives Spec Names Props

attribute [local irreducible] parseRule

/-- Which sound may follow, pairs of consonants aside. -/
def Fits : Sound → List Sound → Prop
  | .consonant _, .consonant _ :: _ => True
  | .consonant _, .vowels _ :: _ => True
  | .vowels _, [] => True
  | .vowels _, .consonant _ :: _ => True
  | .vowels _, .apostrophe _ :: _ => True
  | .apostrophe _, .vowels g :: _ => g ≠ ['y']
  | _, _ => False

def Fine : List Sound → Prop
  | [] => True
  | x :: s => x.WellFormed ∧ Plain x ∧ Fits x s ∧ Fine s

theorem fine_good : ∀ {s : List Sound}, Fine s →
    (∀ p c d r, text s = p ++ c :: d :: r → IsConsonantLetter c → IsConsonantLetter d → PermissiblePair (lower c) (lower d)) →
    (∀ p c d e r, text s = p ++ c :: d :: e :: r → IsConsonantLetter c → IsConsonantLetter d → IsConsonantLetter e → [lower c, lower d, lower e] ∉ forbiddenTriples) → Names.Good s
  | [], _, _, _ => trivial
  | x :: s, h, h2, h3 => by
    obtain ⟨hw, hp, hf, hs⟩ := h
    refine ⟨hw, ?_, ?_, fine_good hs (fun p c d r e => h2 (x.letters ++ p) c d r (by simp [e])) (fun p c d f r e => h3 (x.letters ++ p) c d f r (by simp [e]))⟩
    · cases s with
      | nil => cases x <;> first | exact hf.elim | exact ⟨rfl, rfl⟩
      | cons y t =>
        cases x <;> cases y <;> first | exact hf.elim | trivial | skip
        exact h2 [] _ _ (text t) rfl hw hs.1
    · cases x <;> first | trivial | skip
      cases s with
      | nil => trivial
      | cons y t =>
        cases y <;> first | trivial | skip
        cases t with
        | nil => trivial
        | cons z t =>
          cases z <;> first | trivial | skip
          exact h3 [] _ _ _ (text t) rfl hw hs.1 hs.2.2.2.1

theorem fine_plain : ∀ {s : List Sound}, Fine s → ∀ x ∈ s, Plain x
  | [], _ => by simp
  | x :: s, h => by
    intro y hy
    rcases List.mem_cons.mp hy with rfl | hy
    · exact h.2.1
    · exact fine_plain h.2.2.2 y hy

theorem fine_hy : ∀ {s : List Sound}, Fine s → ∀ a q t, s ≠ a ++ Q q :: Y :: t
  | [], _ => by intro a q t e; simp at e
  | x :: s, h => by
    intro a q t e
    cases a with
    | nil =>
      simp only [List.nil_append, List.cons.injEq] at e
      obtain ⟨rfl, rfl⟩ := e
      exact h.2.2.1 rfl
    | cons z a =>
      simp only [List.cons_append, List.cons.injEq] at e
      exact fine_hy h.2.2.2 a q t e.2

/-- No capital vowels. -/
def Small (w : List Char) : Prop := ∀ c ∈ w, c ∉ c!"AEIOUY"

theorem Small.head {c : Char} {w : List Char} (h : Small (c :: w)) : c ∉ c!"AEIOUY" := h c (by simp)
theorem Small.tail {c : Char} {w : List Char} (h : Small (c :: w)) : Small w := fun x hx => h x (by simp [hx])

theorem small_five {v : Char} (h : IsVowelLetter v) (hs : v ∉ c!"AEIOUY") : v ∈ c!"aeiou" := by
  have : ∀ v ∈ c!"aeiouAEIOU", v ∉ c!"AEIOUY" → v ∈ c!"aeiou" := by decide
  exact this v h hs
theorem small_diph {v w : Char} (h : IsDiphthong v w) (hv : v ∉ c!"AEIOUY") (hw : w ∉ c!"AEIOUY") : [v, w] ∈ diphs := by
  have k1 : ∀ v ∈ c!"aA", ∀ w ∈ c!"iuIU", v ∉ c!"AEIOUY" → w ∉ c!"AEIOUY" → [v, w] ∈ diphs := by decide
  have k2 : ∀ v ∈ c!"eoEO", ∀ w ∈ c!"iI", v ∉ c!"AEIOUY" → w ∉ c!"AEIOUY" → [v, w] ∈ diphs := by decide
  rcases h with h | h
  · exact k1 v h.1 w h.2 hv hw
  · exact k2 v h.1 w h.2 hv hw
theorem small_y {y : Char} (h : y ∈ c!"yY") (hs : y ∉ c!"AEIOUY") : y = 'y' := by
  have : ∀ v ∈ c!"yY", v ∉ c!"AEIOUY" → v = 'y' := by decide
  exact this y h hs

theorem five_group {v : Char} (h : v ∈ c!"aeiou") : (V v).WellFormed ∧ Plain (V v) := by
  have : ∀ v ∈ c!"aeiou", v ∈ c!"aeiouyAEIOUY" := by decide
  exact ⟨.inl ⟨v, this v h, rfl⟩, .inl ⟨v, h, rfl⟩⟩

theorem diph_group {v w : Char} (h : [v, w] ∈ diphs) : (D v w).WellFormed ∧ Plain (D v w) := by
  refine ⟨?_, .inr (.inr h)⟩
  have : ∀ g ∈ diphs, VowelGroup g := by
    intro g hg
    simp only [diphs, List.mem_cons, List.not_mem_nil, or_false] at hg
    rcases hg with rfl | rfl | rfl | rfl
    · exact .inr (.inl ⟨'a', by decide, 'i', by decide, rfl⟩)
    · exact .inr (.inl ⟨'a', by decide, 'u', by decide, rfl⟩)
    · exact .inr (.inr ⟨'e', by decide, 'i', by decide, rfl⟩)
    · exact .inr (.inr ⟨'o', by decide, 'i', by decide, rfl⟩)
  exact this _ h

theorem y_group : Sound.WellFormed Y ∧ Plain Y := ⟨.inl ⟨'y', by decide, rfl⟩, .inr (.inl rfl)⟩

theorem five_not_y {v : Char} (h : v ∈ c!"aeiou") : [v] ≠ ['y'] := by
  rintro e
  simp at e
  subst e
  exact absurd h (by decide)

/-- Consonants come first, then some more. -/
def Starts (T : List Sound) : Prop := ∃ c x t, T = C c :: x :: t

theorem rR_cons {h : Char} (hh : h ∈ c!"rR") : IsConsonantLetter h := by
  have : ∀ h ∈ c!"rR", IsConsonantLetter h := by decide
  exact this h hh
theorem hyphen_cons {h : Char} {w : List Char} (hh : IsHyphen h w) : IsConsonantLetter h := by
  rcases hh with hh | ⟨hh, _⟩
  · exact rR_cons hh
  · have : ∀ h ∈ c!"nN", IsConsonantLetter h := by decide
    exact this h hh

theorem hyphen_hyp {h : Char} {T : List Sound} (hT : Starts T) (hh : IsHyphen h (text T)) : Hyp h T := by
  rcases hh with hh | ⟨hh, r, t, e, hr⟩
  · exact .inl hh
  · obtain ⟨c, x, t', rfl⟩ := hT
    simp only [text_cons, Sound.letters, List.cons_append, List.nil_append, List.cons.injEq] at e
    exact .inr ⟨hh, c, x :: t', rfl, e.1 ▸ hr⟩

theorem before_sounds {a : List Char} {T : List Sound} (h : RafsiBefore a (text T)) (sm : Small a) (hT : Starts T) (fT : Fine T) :
    ∃ s, text s = a ∧ Aff s T ∧ Fine (s ++ T) ∧ Starts (s ++ T) := by
  obtain ⟨cc, x, t, e⟩ := id hT
  generalize hw : text T = w at h
  cases h with
  | @cvc c v d _ hc hv hd =>
    replace hv := small_five hv sm.tail.head
    exact ⟨[C c, V v, C d], rfl, .cvc hv, by subst e; exact ⟨hc, trivial, trivial, (five_group hv).1, (five_group hv).2, trivial, hd, trivial, trivial, fT⟩, _, _, _, rfl⟩
  | @ccv c d v _ hp hv =>
    replace hv := small_five hv sm.tail.tail.head
    exact ⟨[C c, C d, V v], rfl, .ccv hp.2.2 hv, by subst e; exact ⟨hp.1, trivial, trivial, hp.2.1, trivial, trivial, (five_group hv).1, (five_group hv).2, trivial, fT⟩, _, _, _, rfl⟩
  | @cvv c v w h _ hc hv hh =>
    replace hv := small_diph hv sm.tail.head sm.tail.tail.head
    exact ⟨[C c, D v w, C h], rfl, .cvv hv (hyphen_hyp hT (hw ▸ hh)), by subst e; exact ⟨hc, trivial, trivial, (diph_group hv).1, (diph_group hv).2, trivial, hyphen_cons hh, trivial, trivial, fT⟩, _, _, _, rfl⟩
  | @cvhv c v q w h _ hc hv hq hv2 hh =>
    replace hv := small_five hv sm.tail.head
    replace hv2 := small_five hv2 sm.tail.tail.tail.head
    exact ⟨[C c, V v, Q q, V w, C h], rfl, .cvhv hv hv2 (hyphen_hyp hT (hw ▸ hh)), by subst e; exact ⟨hc, trivial, trivial, (five_group hv).1, (five_group hv).2, trivial, hq, trivial, five_not_y hv2, (five_group hv2).1, (five_group hv2).2, trivial, hyphen_cons hh, trivial, trivial, fT⟩, _, _, _, rfl⟩
  | @cvcy c v d y _ hc hv hd hy =>
    replace hv := small_five hv sm.tail.head
    obtain rfl := small_y hy sm.tail.tail.tail.head
    exact ⟨[C c, V v, C d, Y], rfl, .cvcy hv, by subst e; exact ⟨hc, trivial, trivial, (five_group hv).1, (five_group hv).2, trivial, hd, trivial, trivial, y_group.1, y_group.2, trivial, fT⟩, _, _, _, rfl⟩
  | @cvccy c v d e' y _ hc hv hd he hy =>
    replace hv := small_five hv sm.tail.head
    obtain rfl := small_y hy sm.tail.tail.tail.tail.head
    exact ⟨[C c, V v, C d, C e', Y], rfl, .cvccy hv, by subst e; exact ⟨hc, trivial, trivial, (five_group hv).1, (five_group hv).2, trivial, hd, trivial, trivial, he, trivial, trivial, y_group.1, y_group.2, trivial, fT⟩, _, _, _, rfl⟩
  | @ccvcy c d v e' y _ hp hv he hy =>
    replace hv := small_five hv sm.tail.tail.head
    obtain rfl := small_y hy sm.tail.tail.tail.tail.head
    exact ⟨[C c, C d, V v, C e', Y], rfl, .ccvcy hp.2.2 hv, by subst e; exact ⟨hp.1, trivial, trivial, hp.2.1, trivial, trivial, (five_group hv).1, (five_group hv).2, trivial, he, trivial, trivial, y_group.1, y_group.2, trivial, fT⟩, _, _, _, rfl⟩

theorem short_sounds {f : List Char} (h : ShortRafsi f) (sm : Small f) : ∃ s, text s = f ∧ Short s ∧ Fine s ∧ Starts s := by
  cases h with
  | @cvv c v w hc hv =>
    replace hv := small_diph hv sm.tail.head sm.tail.tail.head
    exact ⟨[C c, D v w], rfl, .cvv hv, ⟨hc, trivial, trivial, (diph_group hv).1, (diph_group hv).2, trivial, trivial⟩, _, _, _, rfl⟩
  | @ccv c d v hp hv =>
    replace hv := small_five hv sm.tail.tail.head
    exact ⟨[C c, C d, V v], rfl, .ccv hp.2.2 hv, ⟨hp.1, trivial, trivial, hp.2.1, trivial, trivial, (five_group hv).1, (five_group hv).2, trivial, trivial⟩, _, _, _, rfl⟩

theorem last_sounds {f : List Char} (h : LastRafsi f) (sm : Small f) : ∃ s, text s = f ∧ (Short s ∨ Tail s) ∧ Fine s ∧ Starts s := by
  cases h with
  | short h =>
    obtain ⟨s, h1, h2, h3⟩ := short_sounds h sm
    exact ⟨s, h1, .inl h2, h3⟩
  | @cvhv c v q w hc hv hq hv2 =>
    replace hv := small_five hv sm.tail.head
    replace hv2 := small_five hv2 sm.tail.tail.tail.head
    exact ⟨[C c, V v, Q q, V w], rfl, .inr (.cvhv hv hv2), ⟨hc, trivial, trivial, (five_group hv).1, (five_group hv).2, trivial, hq, trivial, five_not_y hv2, (five_group hv2).1, (five_group hv2).2, trivial, trivial⟩, _, _, _, rfl⟩
  | @cvccv c v d e w hc hv hd he hw =>
    replace hv := small_five hv sm.tail.head
    replace hw := small_five hw sm.tail.tail.tail.tail.head
    exact ⟨[C c, V v, C d, C e, V w], rfl, .inr (.gis1 hv hw), ⟨hc, trivial, trivial, (five_group hv).1, (five_group hv).2, trivial, hd, trivial, trivial, he, trivial, trivial, (five_group hw).1, (five_group hw).2, trivial, trivial⟩, _, _, _, rfl⟩
  | @ccvcv c d v e w hp hv he hw =>
    replace hv := small_five hv sm.tail.tail.head
    replace hw := small_five hw sm.tail.tail.tail.tail.head
    exact ⟨[C c, C d, V v, C e, V w], rfl, .inr (.gis2 hp.2.2 hv hw), ⟨hp.1, trivial, trivial, hp.2.1, trivial, trivial, (five_group hv).1, (five_group hv).2, trivial, he, trivial, trivial, (five_group hw).1, (five_group hw).2, trivial, trivial⟩, _, _, _, rfl⟩

theorem bare_sounds {a : List Char} {T : List Sound} (h : VowelRafsi a) (sm : Small a) (hT : Starts T) (fT : Fine T) :
    ∃ s, text s = a ∧ Bare s ∧ Fine (s ++ T) ∧ Starts (s ++ T) := by
  obtain ⟨cc, x, t, e⟩ := id hT
  cases h with
  | @cvv c v w hc hv =>
    replace hv := small_diph hv sm.tail.head sm.tail.tail.head
    exact ⟨[C c, D v w], rfl, .cvv hv, by subst e; exact ⟨hc, trivial, trivial, (diph_group hv).1, (diph_group hv).2, trivial, fT⟩, _, _, _, rfl⟩
  | @cvhv c v q w hc hv hq hv2 =>
    replace hv := small_five hv sm.tail.head
    replace hv2 := small_five hv2 sm.tail.tail.tail.head
    exact ⟨[C c, V v, Q q, V w], rfl, .cvhv hv hv2, by subst e; exact ⟨hc, trivial, trivial, (five_group hv).1, (five_group hv).2, trivial, hq, trivial, five_not_y hv2, (five_group hv2).1, (five_group hv2).2, trivial, fT⟩, _, _, _, rfl⟩

theorem word_sounds {w : List Char} (h : RafsiWord w) : Small w → ∃ T, text T = w ∧ Str T ∧ Fine T ∧ Starts T := by
  have cut : ∀ {a b : List Char}, Small (a ++ b) → Small a ∧ Small b := fun h => ⟨fun c hc => h c (by simp [hc]), fun c hc => h c (by simp [hc])⟩
  induction h with
  | @two a f ha hf =>
    intro sm
    obtain ⟨T, rfl, hk, fT, sT⟩ := last_sounds hf (cut sm).2
    obtain ⟨s, rfl, hs, fs, ss⟩ := before_sounds ha (cut sm).1 sT fT
    refine ⟨s ++ T, by simp, ?_, fs, ss⟩
    rcases hk with hk | hk
    · exact .tail (.short hs hk)
    · exact .more hs (.tail hk)
  | @bare a f ha hf =>
    intro sm
    obtain ⟨T, rfl, hk, fT, sT⟩ := short_sounds hf (cut sm).2
    obtain ⟨s, rfl, hs, fs, ss⟩ := bare_sounds ha (cut sm).1 sT fT
    exact ⟨s ++ T, by simp, .tail (.bare hs hk), fs, ss⟩
  | @more a w ha _ ih =>
    intro sm
    obtain ⟨T, rfl, hk, fT, sT⟩ := ih (cut sm).2
    obtain ⟨s, rfl, hs, fs, ss⟩ := before_sounds ha (cut sm).1 sT fT
    exact ⟨s ++ T, by simp, .more hs hk, fs, ss⟩

/-- A lujvo, sound by sound. -/
theorem lujvo_sounds {w : List Char} (h : LujvoForm w) (sm : Small w) : ∃ T, text T = w ∧ Str T ∧ Ok T := by
  obtain ⟨h1, h2, h3⟩ := h
  obtain ⟨T, rfl, hs, fT, _⟩ := word_sounds h1 sm
  exact ⟨T, rfl, hs, fine_good fT h2 h3, fine_plain fT, fine_hy fT⟩

end Sneturfahi.Lj
