import Verif.Model.Messages
import Verif.Props.Lex
import Verif.Props.Cst
import Verif.Props.ReadBack

/-!
# C103: the messages of errors say what is wrong
-/

namespace Sneturfahi.Props

open Spec ReadBack

/-! ## The lexer -/

/-- **C103.** What the message of a lexing error says is true of the text: if it is that a separator was expected, the text
has a word that opens a delimited quote and no word after it; if it is that a quote is unclosed, it has such a word, a
delimiter, and that delimiter nowhere after it; if it is that content was expected, it has a word that opens a
pause-delimited quote and nothing but commas after it.  There is no other message. -/
theorem C103_lexing (p : Profile) (input : Str) (h : input.len < 2 ^ 32) (items : List LexItem)
    (hi : lexAll p input = .val items) (e : LexError) (he : .error e ∈ items) :
    (e.display = c!"expected a separator after a delimited quote initiator but found the end of input" ∧
      ∃ before w after s x, input.chars = before ++ w ++ after ∧ Classified w s x ∧ opensDelimited s ∧ NoWord after) ∨
    (e.display = c!"a delimited quote is unclosed" ∧
      ∃ before w mid d after s x, input.chars = before ++ w ++ mid ++ d ++ after ∧ Classified w s x ∧ opensDelimited s ∧
        NeverCloses d after) ∨
    (e.display = c!"expected the content of a pause-delimited quote but found the end of input" ∧
      ∃ before w after s x, input.chars = before ++ w ++ after ∧ Classified w s x ∧ opensPause s ∧ OnlyCommas after) := by
  have hm := C40_errors_mean p input h items hi e he
  cases e with
  | delimitedQuoteMissingSeparator ini =>
    obtain ⟨before, w, after, s, x, h1, _, h2⟩ := hm
    exact .inl ⟨rfl, before, w, after, s, x, h1, h2⟩
  | delimitedQuoteUnclosed ini dsp =>
    obtain ⟨before, w, mid, d, after, s, x, h1, _, h2, h3, _, h4⟩ := hm
    exact .inr (.inl ⟨rfl, before, w, mid, d, after, s, x, h1, h2, h3, h4⟩)
  | pauseDelimitedQuoteEof ini =>
    obtain ⟨before, w, after, s, x, h1, _, h2⟩ := hm
    exact .inr (.inr ⟨rfl, before, w, after, s, x, h1, h2⟩)

/-- The message of a lexing error tells its kind, and nothing but its kind. -/
theorem C103_kind (a b : LexError) : a.display = b.display ↔
    ((∃ i j, a = .delimitedQuoteMissingSeparator i ∧ b = .delimitedQuoteMissingSeparator j) ∨
      (∃ i d j f, a = .delimitedQuoteUnclosed i d ∧ b = .delimitedQuoteUnclosed j f) ∨
      (∃ i j, a = .pauseDelimitedQuoteEof i ∧ b = .pauseDelimitedQuoteEof j)) := by
  have h1 : c!"expected a separator after a delimited quote initiator but found the end of input" ≠ c!"a delimited quote is unclosed" := by decide
  have h2 : c!"expected a separator after a delimited quote initiator but found the end of input" ≠
      c!"expected the content of a pause-delimited quote but found the end of input" := by decide
  have h3 : c!"a delimited quote is unclosed" ≠
      c!"expected the content of a pause-delimited quote but found the end of input" := by decide
  constructor
  · intro h
    cases a <;> cases b
    · exact .inl ⟨_, _, rfl, rfl⟩
    · exact absurd h h1
    · exact absurd h h2
    · exact absurd h h1.symm
    · exact .inr (.inl ⟨_, _, _, _, rfl, rfl⟩)
    · exact absurd h h3
    · exact absurd h h2.symm
    · exact absurd h h3.symm
    · exact .inr (.inr ⟨_, _, rfl, rfl⟩)
  · rintro (⟨i, j, rfl, rfl⟩ | ⟨i, d, j, f, rfl, rfl⟩ | ⟨i, j, rfl, rfl⟩) <;> rfl

/-- All three occur. -/
theorem C103_kinds_occur : lexAll .debug ⟨0, c!"mi zoi"⟩ = .val [.ok ⟨false, .Koha, ⟨0, 2⟩⟩,
      .error (.delimitedQuoteMissingSeparator ⟨3, 6⟩)] ∧
    lexAll .debug ⟨0, c!"zoi gy a"⟩ = .val [.ok ⟨false, .Zoi, ⟨0, 3⟩⟩, .error (.delimitedQuoteUnclosed ⟨0, 3⟩ ⟨4, 6⟩)] ∧
    lexAll .debug ⟨0, c!"me'oi"⟩ = .val [.ok ⟨true, .Mehoi, ⟨0, 5⟩⟩, .error (.pauseDelimitedQuoteEof ⟨0, 5⟩)] := by
  decide +kernel

/-! ## The parser -/

/-- **C103.** The message of a failed parse is `nom error: Eof`, and then either tokens are left over or the text has a
`lo'u`; or it is `nom error: Not`, or says that a `fo'i` or `ga'o` was expected and what was found in its place, and then
the text has a `tei` or `ga'o`, respectively.  So no failed parse speaks of a failed post-condition, or of having consumed
no input. -/
theorem C103_parsing (p : Profile) (f : Surroundings) (s : Toks) (e : Located) (h : parseCst p s = .val (.error e)) :
    (e.error.display f = c!"nom error: Eof" ∧ (e.location.list ≠ [] ∨ ∃ t ∈ s.list, t.selmaho = .Lohu)) ∨
    (e.error.display f = c!"nom error: Not" ∧ ∃ t ∈ s.list, t.selmaho = .Tei ∨ t.selmaho = .Gaho) ∨
    (∃ n got, e.error.display f = c!"expected token with one of the selmaho [" ++ commas (List.replicate n c!"Foi") ++
        c!"], got " ++ debugGot got ∧ ∃ t ∈ s.list, t.selmaho = .Tei) ∨
    (∃ n got, e.error.display f = c!"expected token with one of the selmaho [" ++ commas (List.replicate n c!"Gaho") ++
        c!"], got " ++ debugGot got ∧ ∃ t ∈ s.list, t.selmaho = .Gaho) := by
  rcases C52_errors p s e h with ⟨h1, h2⟩ | ⟨h1, _, h2⟩ | ⟨o, c, ho, ⟨t, ht, h1⟩, h2⟩
  · exact .inl ⟨by rw [h1]; rfl, .inl h2⟩
  · exact .inl ⟨by rw [h1]; rfl, .inr h2⟩
  · rcases h2 with h2 | ⟨ex, got, h2, h3⟩
    · refine .inr (.inl ⟨by rw [h2]; rfl, t, ht, ?_⟩)
      rcases ho with ⟨rfl, _⟩ | ⟨rfl, _⟩
      · exact .inl h1
      · exact .inr h1
    · have hex : ex.map Selmaho.ident = List.replicate ex.length c.ident := by
        have : ex = List.replicate ex.length c := List.eq_replicate_iff.mpr ⟨rfl, h3⟩
        rw [this]
        simp
      rcases ho with ⟨rfl, rfl⟩ | ⟨rfl, rfl⟩
      · refine .inr (.inr (.inl ⟨ex.length, got, ?_, t, ht, h1⟩))
        rw [h2]
        simp only [CstError.display, hex, debugList]
        simp [Selmaho.ident]
      · refine .inr (.inr (.inr ⟨ex.length, got, ?_, t, ht, h1⟩))
        rw [h2]
        simp only [CstError.display, hex, debugList]
        simp [Selmaho.ident]

/-- Without `lo'u`, `tei` and `ga'o` in the text there is one message only. -/
theorem C103_plain (p : Profile) (f : Surroundings) (s : Toks) (e : Located) (h : parseCst p s = .val (.error e))
    (hs : ∀ t ∈ s.list, t.selmaho ∉ [Selmaho.Lohu, .Tei, .Gaho]) : e.error.display f = c!"nom error: Eof" := by
  rw [(C52_plain p s e h hs).1]
  rfl

/-- **C103.** From the message of a failed parse the error can be told: if two parses fail with the same message, then with
the same error (what was expected, and the token found with its class, star and range). -/
theorem C103_determined (p : Profile) (f : Surroundings) (s s' : Toks) (e e' : Located) (h : parseCst p s = .val (.error e))
    (h' : parseCst p s' = .val (.error e')) (hm : e.error.display f = e'.error.display f) : e.error = e'.error := by
  have kinds : ∀ {t : Toks} {d : Located}, parseCst p t = .val (.error d) →
      d.error = .nom .eof ∨ d.error = .nom .not ∨ ∃ ex got, d.error = .expectedGot ex got := by
    intro t d hd
    rcases C52_errors p t d hd with ⟨h1, _⟩ | ⟨h1, _⟩ | ⟨o, c, _, _, h1 | ⟨ex, got, h1, _⟩⟩
    · exact .inl h1
    · exact .inl h1
    · exact .inr (.inl h1)
    · exact .inr (.inr ⟨ex, got, h1⟩)
  rcases kinds h with k | k | ⟨ex, got, k⟩ <;> rcases kinds h' with k' | k' | ⟨ex', got', k'⟩ <;> rw [k, k'] at hm ⊢
  · simp [CstError.display, NomKind.debug] at hm
  · simp [CstError.display, NomKind.debug] at hm
  · simp [CstError.display, NomKind.debug] at hm
  · simp [CstError.display, NomKind.debug] at hm
  · simp [CstError.display, NomKind.debug] at hm
  · simp [CstError.display, NomKind.debug] at hm
  · simp only [CstError.display, List.append_assoc] at hm
    obtain ⟨h1, h2⟩ := debugList_inj ident_entry (pre_inj _ hm)
    simp only [List.map_id] at h1
    have h3 := pre_inj _ h2
    obtain ⟨h4, _⟩ := got_inj (a := got) (b := got') (r := []) (r' := []) (by rw [h3])
    rw [h1, h4]

/-! ### The characters of the messages -/

theorem decimal_visible (n : Nat) : (decimal n).all visible = true := by
  refine List.all_eq_true.mpr fun c hc => ?_
  have := decimal_digit n c hc
  simp only [Char.isDigit, Bool.and_eq_true, decide_eq_true_eq] at this
  have h1 : 48 ≤ c.toNat := this.1
  have h2 : c.toNat ≤ 57 := this.2
  simp only [visible, Bool.and_eq_true, decide_eq_true_eq]
  omega

theorem bool_visible (b : Bool) : (debugBool b).all visible = true := by
  cases b <;> decide

theorem token_visible (t : Token) : t.debug.all visible = true := by
  simp only [Token.debug, Span.debug, List.all_append, ident_visible, decimal_visible, bool_visible]
  decide

theorem got_visible (g : Option Token) : (debugGot g).all visible = true := by
  cases g with
  | none => decide
  | some t =>
    simp only [debugGot, List.all_append, token_visible]
    decide

theorem commas_visible : ∀ xs : List (List Char), (∀ x ∈ xs, x.all visible = true) → (commas xs).all visible = true
  | [], _ => rfl
  | [x], h => h x (by simp)
  | x :: y :: ys, h => by
    have h2 := commas_visible (y :: ys) (fun z hz => h z (by simp [List.mem_cons.mp hz]))
    show (x ++ c!", " ++ commas (y :: ys)).all visible = true
    rw [List.all_append, List.all_append, h x (by simp), h2]
    decide

/-- Whatever the surroundings, and whatever the text contains, the messages of lexing errors and of failed parses consist of
printable ASCII characters only; in particular each is a single line. -/
theorem C103_printable :
    (∀ e : LexError, ∀ c ∈ e.display, 0x20 ≤ c.toNat ∧ c.toNat < 0x7f) ∧
    (∀ (p : Profile) (f : Surroundings) (s : Toks) (e : Located), parseCst p s = .val (.error e) →
      ∀ c ∈ e.error.display f, 0x20 ≤ c.toNat ∧ c.toNat < 0x7f) := by
  have out : ∀ {l : List Char}, l.all visible = true → ∀ c ∈ l, 0x20 ≤ c.toNat ∧ c.toNat < 0x7f := by
    intro l h c hc
    have := List.all_eq_true.mp h c hc
    simpa only [visible, Bool.and_eq_true, decide_eq_true_eq] using this
  constructor
  · intro e
    refine out ?_
    have h1 : c!"expected a separator after a delimited quote initiator but found the end of input".all visible = true := by decide
    have h2 : c!"a delimited quote is unclosed".all visible = true := by decide
    have h3 : c!"expected the content of a pause-delimited quote but found the end of input".all visible = true := by decide
    cases e
    · exact h1
    · exact h2
    · exact h3
  · intro p f s e h
    refine out ?_
    rcases C52_errors p s e h with ⟨h1, _⟩ | ⟨h1, _⟩ | ⟨o, c, _, _, h1 | ⟨ex, got, h1, _⟩⟩ <;> rw [h1]
    · exact (by decide : c!"nom error: Eof".all visible = true)
    · exact (by decide : c!"nom error: Eof".all visible = true)
    · exact (by decide : c!"nom error: Not".all visible = true)
    · simp only [CstError.display, debugList, List.all_append, got_visible]
      rw [commas_visible]
      · decide
      · intro x hx
        obtain ⟨y, _, rfl⟩ := List.mem_map.mp hx
        exact ident_visible y

/-- The messages of four failed parses (compare `C52_occur`). -/
theorem C103_example (f : Surroundings) :
    (error? (sample [.Koha, .Ku])).map (fun e => e.error.display f) = some c!"nom error: Eof" ∧
    (error? (sample [.Koha, .Gaho, .Bihi, .Gaho, .Bu, .Koha])).map (fun e => e.error.display f) = some c!"nom error: Not" ∧
    (error? (sample [.Tei, .By])).map (fun e => e.error.display f) =
      some c!"expected token with one of the selmaho [Foi], got None" ∧
    (error? (sample [.Koha, .Gaho, .Bihi, .Koha])).map (fun e => e.error.display f) =
      some c!"expected token with one of the selmaho [Gaho], got Some(Token { experimental: false, selmaho: Koha, span: 6..7 })" := by
  have h := C52_occur
  have conv : ∀ {x : Option Located} {d : CstError}, x.map Located.error = some d →
      x.map (fun e => e.error.display f) = some (d.display f) := by
    intro x d hx
    cases x with
    | none => cases hx
    | some e =>
      simp only [Option.map_some, Option.some.injEq] at hx ⊢
      rw [hx]
  exact ⟨(conv h.1).trans rfl, (conv h.2.2.2.2).trans rfl, (conv h.2.2.1).trans rfl,
    (conv h.2.2.2.1).trans rfl⟩

end Sneturfahi.Props
