import Verif.Proof.CstQuote
import Verif.Props.Cst

/-!
# C59 and following: more about the grammar
-/

namespace Sneturfahi.Props

open Spec

theorem formed_root {p : Profile} {s : Toks} {root : Val} (h : parseCst p s = .val (.ok root)) : Formed cst (.call .Text) [root] := by
  have h1 := parseCst_ok h
  have h2 := runCst_conforms .Text s
  rw [h1] at h2
  exact (h2 _ _ rfl).1

/-- **C59.** In the tree of a text, each word that is used as what it is (not quoted by `zo`, `zoi` or `lo'u`, not after
`zei`, not before `bu` or `zei`) belongs to a selma'o of the standard grammar: it is not unclassifiable, no unknown cmavo,
none of the erasure words, and not of an experimental selma'o. -/
theorem C59_unquoted (p : Profile) (s : Toks) (root : Val) (h : parseCst p s = .val (.ok root)) :
    ∀ t ∈ unquoted root, ¬ Unused t.selmaho := by
  have h1 := formed_quiet cst_quiet (formed_root h) (by decide)
  simp only [unquotedL, List.append_nil] at h1
  exact h1

/-- Hence a sequence of tokens with such a word, and without `zo`, `zoi`, `lo'u`, `zei` and `bu`, does not parse. -/
theorem C59_no_use (s : Toks) (t : Token) (ht : t ∈ s.list) (hu : Unused t.selmaho)
    (hn : ∀ t' ∈ s.list, t'.selmaho ∉ [Selmaho.Zo, .Zoi, .Lohu, .Zei, .Bu]) :
    ∃ e, ∀ p, parseCst p s = .val (.error e) := by
  obtain ⟨out, ho⟩ := C45_total s
  cases out with
  | error e => exact ⟨e, ho⟩
  | ok root =>
    exfalso
    have h := ho .debug
    have h1 := text_safe (formed_root h)
    simp only [tokensL, List.append_nil] at h1
    rw [C46_tokens .debug s root h] at h1
    rcases h1 with ⟨t', h2, h3⟩ | h1
    · exact hn t' h2 h3
    · exact h1 t ht hu

/-- `mi si do` has an erasure word: it does not parse. -/
example : ∃ e, ∀ p, parseCst p (sample [.Koha, .Si, .Koha]) = .val (.error e) :=
  C59_no_use _ ⟨false, .Si, ⟨2, 3⟩⟩ (by decide) (.inr (by decide)) (by decide)

/-- `zo si` does. -/
example : (tree? (sample [.Zo, .Si])).isSome = true := by decide +kernel

/-! ### C50: delimited quotes in parses -/

/-- **C50, in every parse.** In a sequence of tokens that parses, without `zo`, `lo'u`, `zei` and `bu`, each `zoi` that is
not itself quoted takes exactly the three tokens after it, whatever they are; every other token is a usable word. -/
theorem C50_three_tokens (p : Profile) (s : Toks) (root : Val) (h : parseCst p s = .val (.ok root))
    (hn : ∀ t ∈ s.list, t.selmaho ∉ [Selmaho.Zo, .Lohu, .Zei, .Bu]) : QuotedByFour s.list := by
  have h1 := text_quoted (formed_root h)
  simp only [tokensL, List.append_nil] at h1
  rw [C46_tokens p s root h] at h1
  rcases h1 with ⟨t, h2, h3⟩ | h1
  · exact absurd h3 (hn t h2)
  · exact h1

theorem quotedByFour_end {l : List Token} (h : QuotedByFour l) : ∀ (pre : List Token) (z d d' : Token),
    l = pre ++ [z, d, d'] → z.selmaho = .Zoi → d.selmaho = .ZoiDelimiter → d'.selmaho = .ZoiDelimiter →
    ∃ pre' z', pre = pre' ++ [z'] ∧ z'.selmaho = .Zoi := by
  have hu : ∀ {t : Token}, t.selmaho = .ZoiDelimiter → Unused t.selmaho := by
    intro t ht; rw [ht]; exact .inr (by decide)
  have hnot : ∀ {t : Token} {l : List Token}, t.selmaho = .ZoiDelimiter → ¬ QuotedByFour (t :: l) := by
    intro t l ht hq
    cases hq with
    | word h1 _ _ => exact h1 (hu ht)
    | quote h1 _ => rw [ht] at h1; cases h1
  induction h with
  | nil => intro pre z d d' he; simp at he
  | @word t l h1 h2 _ ih =>
    intro pre z d d' he hz hd hd'
    cases pre with
    | nil => simp at he; exact absurd (he.1 ▸ hz) h2
    | cons x pre =>
      simp at he
      obtain ⟨rfl, he⟩ := he
      obtain ⟨pre', z', rfl, hz'⟩ := ih pre z d d' he hz hd hd'
      exact ⟨t :: pre', z', by simp, hz'⟩
  | @quote z0 a b c l h1 hl ih =>
    intro pre z d d' he hz hd hd'
    match pre, he with
    | [], he => simp at he
    | [x], he => simp at he; exact ⟨[], x, rfl, he.1 ▸ h1⟩
    | [x, y], he => simp at he; rw [he.2.2.2.2] at hl; exact absurd hl (hnot hd')
    | [x, y, w], he => simp at he; rw [he.2.2.2.2] at hl; exact absurd hl (hnot hd)
    | x :: y :: w :: v :: pre, he =>
      simp at he
      obtain ⟨rfl, rfl, rfl, rfl, he⟩ := he
      obtain ⟨pre', z', rfl, hz'⟩ := ih pre z d d' he hz hd hd'
      exact ⟨z0 :: a :: b :: c :: pre', z', by simp, hz'⟩

/-- This item is a `zoi` word. -/
def isZoi : LexItem → Prop
  | .ok t => t.selmaho = .Zoi
  | .error _ => False

/-- No two `zoi` words in a row. -/
def NoTwoZoi : List LexItem → Prop
  | a :: b :: l => ¬ (isZoi a ∧ isZoi b) ∧ NoTwoZoi (b :: l)
  | _ => True

theorem noTwoZoi_split {pre post : List LexItem} {a b : LexItem} (h : NoTwoZoi (pre ++ a :: b :: post)) :
    ¬ (isZoi a ∧ isZoi b) := by
  induction pre with
  | nil => exact h.1
  | cons x pre ih =>
    apply ih
    cases pre with
    | nil => exact h.2
    | cons y pre => exact h.2

theorem shaped_zoi {items : List LexItem} (h : Shaped items) : NoTwoZoi items := by
  have key : ∀ {a : LexItem} {l : List LexItem}, ¬ isZoi a → NoTwoZoi l → NoTwoZoi (a :: l) := by
    intro a l ha hl
    cases l with
    | nil => trivial
    | cons b l => exact ⟨fun h => ha h.1, hl⟩
  have key2 : ∀ {a b : LexItem} {l : List LexItem}, ¬ isZoi b → NoTwoZoi (b :: l) → NoTwoZoi (a :: b :: l) :=
    fun hb hl => ⟨fun h => hb h.2, hl⟩
  have nd : ∀ {t : Token}, t.selmaho = .ZoiDelimiter → ¬ isZoi (.ok t) := by
    intro t ht h; rw [isZoi, ht] at h; cases h
  have na : ∀ {t : Token}, t.selmaho = .AnyText → ¬ isZoi (.ok t) := by
    intro t ht h; rw [isZoi, ht] at h; cases h
  have opt : ∀ {q l : List LexItem}, OptText q → NoTwoZoi l → NoTwoZoi (q ++ l) := by
    rintro q l (rfl | ⟨t, rfl, ht⟩) hl
    · exact hl
    · exact key (na ht) hl
  induction h with
  | nil => trivial
  | ordinary h1 _ _ _ ih =>
    exact key (fun h => h1 (Or.inl h)) ih
  | pause _ h2 _ ih => exact key2 (na h2) (key (na h2) ih)
  | pauseEof _ => exact ⟨fun h => h.2, trivial⟩
  | missing => trivial
  | unclosed _ => exact ⟨fun h => h.2, trivial⟩
  | unclosedSecond _ h2 hq h3 => exact key2 (nd h2) (key (nd h2) (opt hq (key (nd h3) trivial)))
  | one _ h2 hq h3 _ ih => exact key2 (nd h2) (key (nd h2) (opt hq (key (nd h3) ih)))
  | two _ h2 hq h3 hr h4 _ ih => exact key2 (nd h2) (key (nd h2) (opt hq (key (nd h3) (opt hr (key (nd h4) ih)))))

/-- **C50, empty quotes.** A text whose last words are an empty quote (`zoi gy gy`) does not parse, unless `zo`, `lo'u`,
`zei` or `bu` occur in it: the parser wants three tokens after `zoi`, the lexer yields two. -/
theorem C50_final_empty_quote (p : Profile) (text : Str) (hl : text.len < 2 ^ 32) (pre : List Token) (z d d' : Token)
    (hi : lexAll p text = .val ((pre ++ [z, d, d']).map .ok)) (hz : z.selmaho = .Zoi)
    (hd : d.selmaho = .ZoiDelimiter) (hd' : d'.selmaho = .ZoiDelimiter)
    (hn : ∀ t ∈ pre, t.selmaho ∉ [Selmaho.Zo, .Lohu, .Zei, .Bu]) (ptr : Nat) :
    ∃ e, parseCst p ⟨ptr, pre ++ [z, d, d']⟩ = .val (.error e) := by
  obtain ⟨out, ho⟩ := C45_total ⟨ptr, pre ++ [z, d, d']⟩
  cases out with
  | error e => exact ⟨e, ho p⟩
  | ok root =>
    exfalso
    have hq := C50_three_tokens p _ root (ho p) (by
      intro t ht
      simp only [List.mem_append, List.mem_cons, List.not_mem_nil, or_false] at ht
      rcases ht with ht | rfl | rfl | rfl
      · exact hn t ht
      · rw [hz]; decide
      · rw [hd]; decide
      · rw [hd']; decide)
    obtain ⟨pre', z', rfl, hz'⟩ := quotedByFour_end hq pre z d d' rfl hz hd hd'
    have hs := shaped_zoi (C37_shape p text hl _ hi)
    simp only [List.map_append, List.map_cons, List.append_assoc, List.map_nil, List.cons_append, List.nil_append] at hs
    exact noTwoZoi_split hs ⟨hz', hz⟩

example : lexAll .debug ⟨0, c!"mi cusku zoi gy gy"⟩ = .val (([⟨false, .Koha, ⟨0, 2⟩⟩, ⟨false, .Gismu, ⟨3, 8⟩⟩] ++
    [⟨false, .Zoi, ⟨9, 12⟩⟩, ⟨false, .ZoiDelimiter, ⟨13, 15⟩⟩, ⟨false, .ZoiDelimiter, ⟨16, 18⟩⟩] : List Token).map .ok) := by
  decide +kernel

end Sneturfahi.Props
