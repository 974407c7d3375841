import Verif.Spec.Nest
import Verif.Props.Swap

/-!
# C100: pieces within pieces
-/

namespace Sneturfahi.Props

open Spec

theorem closed_open {r : CRule} {a : List Token} {f : List Val → Val} (h : ClosedPiece r a f) : Open a := by
  cases h with
  | pronoun k hk =>
    intro t ht
    rw [List.mem_singleton.mp ht, hk]; decide
  | bracket o c s r inner hb ho _ _ =>
    have h1 : ∀ b ∈ brackets, b.1 ∉ [Selmaho.Zo, .Zoi, .Lohu, .Zei, .Bu] ∧ b.2.1 ∉ [Selmaho.Zo, .Zoi, .Lohu, .Zei, .Bu] := by decide
    have := h1 _ hb
    intro t ht
    simp only [List.cons_append, List.mem_cons, List.mem_append, List.not_mem_nil, or_false] at ht
    rcases ht with rfl | ht | rfl
    · exact this.1
    · exact ho t ht
    · exact this.2

theorem nested_open {r : CRule} {a : List Token} (h : NestedPiece r a) : Open a := by
  induction h with
  | closed h => exact closed_open h
  | within _ _ _ _ h1 _ h3 =>
    rw [open_append, open_append] at h1 ⊢
    exact ⟨⟨h1.1.1, h3⟩, h1.2⟩

theorem not_emphasised_append {x y : List Token} (hx : NotEmphasised x) (hy : NotEmphasised y) : NotEmphasised (x ++ y) := by
  intro t ht
  rcases List.eq_nil_or_concat y with rfl | ⟨l, z, rfl⟩
  · exact hx t (by simpa using ht)
  · rw [List.concat_eq_append] at hy ht
    rw [← List.append_assoc, List.getLast?_concat] at ht
    exact hy t (by simpa using ht)

/-- Every nested piece goes back to a closed one of the same kind. -/
theorem nested_base {r : CRule} {a : List Token} (h : NestedPiece r a) : ∃ b f, ClosedPiece r b f := by
  induction h with
  | closed h => exact ⟨_, _, h⟩
  | within _ _ _ _ h1 _ _ => exact h1

theorem nested_like {r : CRule} {a : List Token} (h : NestedPiece r a) : ∀ (q : List Token) (f : List Val → Val), ClosedPiece r q f →
    ∀ x y, Open x → Open y → NotEmphasised x → (IsText (x ++ a ++ y) ↔ IsText (x ++ q ++ y)) := by
  induction h with
  | closed h =>
    intro q f hq x y hx hy hn
    exact C98_exchange _ _ (.mk h hq hx hy hn)
  | @within r r' u a b v h1 h2 h3 hu i1 i2 i3 =>
    intro q f hq x y hx hy hn
    obtain ⟨p, g, hp⟩ := nested_base h2
    have ho := nested_open h1
    rw [open_append, open_append] at ho
    have hxu : Open (x ++ u) := open_append.mpr ⟨hx, ho.1.1⟩
    have hvy : Open (v ++ y) := open_append.mpr ⟨ho.2, hy⟩
    have hne := not_emphasised_append hn hu
    have e : ∀ b, x ++ (u ++ b ++ v) ++ y = (x ++ u) ++ b ++ (v ++ y) := by intro b; simp
    rw [e, i3 p g hp _ _ hxu hvy hne, ← i2 p g hp _ _ hxu hvy hne, ← e]
    exact i1 q f hq x y hx hy hn

/-- **C100.** Closed pieces with closed pieces within them, nested to any depth, can be exchanged like those of C98. -/
theorem C100_exchange (r : CRule) (a b : List Token) (ha : NestedPiece r a) (hb : NestedPiece r b) (x y : List Token) (hx : Open x) (hy : Open y)
    (hn : NotEmphasised x) : IsText (x ++ a ++ y) ↔ IsText (x ++ b ++ y) := by
  obtain ⟨q, f, hq⟩ := nested_base ha
  rw [nested_like ha q f hq x y hx hy hn, nested_like hb q f hq x y hx hy hn]

/-- A text with quotes: what it is, and that it can be quoted, too. -/
theorem quoted_text {t : List Token} (h : QuotedText t) : Open t ∧ IsText t ∧ ∀ (k lu lihu : Token), k.selmaho = .Koha → lu.selmaho = .Lu →
    lihu.selmaho = .Lihu → NestedPiece .SumtiComponent1 (lu :: t ++ [lihu]) := by
  induction h with
  | plain ht ho hl =>
    refine ⟨ho, ht, fun k lu lihu hk h1 h2 => ?_⟩
    obtain ⟨f, hf⟩ := quote_piece h1 h2 ht ho hl
    exact .closed hf
  | @quote x y t k lu lihu _ _ hk h1 h2 hn i1 i2 =>
    obtain ⟨o1, t1, n1⟩ := i1
    obtain ⟨o2, t2, n2⟩ := i2
    have o1' := open_append.mp o1
    have o1'' := open_append.mp o1'.1
    have hq := n2 k lu lihu hk h1 h2
    have hp : NestedPiece .SumtiComponent1 [k] := .closed (.pronoun k hk)
    refine ⟨?_, ?_, fun k' lu' lihu' hk' h1' h2' => ?_⟩
    · exact open_append.mpr ⟨open_append.mpr ⟨o1''.1, nested_open hq⟩, o1'.2⟩
    · exact (C100_exchange _ _ _ hp hq x y o1''.1 o1'.2 hn).mp t1
    · have := n1 k' lu' lihu' hk' h1' h2'
      have e : ∀ l : List Token, lu' :: (x ++ l ++ y) ++ [lihu'] = (lu' :: x) ++ l ++ (y ++ [lihu']) := by intro l; simp
      rw [e] at this ⊢
      refine .within this hp hq ?_
      have : lu' :: x = [lu'] ++ x := rfl
      rw [this]
      refine not_emphasised_append ?_ hn
      intro u hu
      have hu : lu' = u := by simpa using hu
      rw [← hu, h1']; decide

/-- **C100.** A text in which all quotes are closed, nested to any depth, is a text, and can be quoted wherever a pronoun can stand. -/
theorem C100_quotes (t : List Token) (h : QuotedText t) : IsText t ∧ ∀ (k lu lihu : Token) (x y : List Token), k.selmaho = .Koha → lu.selmaho = .Lu →
    lihu.selmaho = .Lihu → Open x → Open y → NotEmphasised x → (IsText (x ++ [k] ++ y) ↔ IsText (x ++ (lu :: t ++ [lihu]) ++ y)) := by
  obtain ⟨h1, h2, h3⟩ := quoted_text h
  exact ⟨h2, fun k lu lihu x y hk hl hc hx hy hn =>
    C100_exchange _ _ _ (.closed (.pronoun k hk)) (h3 k lu lihu hk hl hc) x y hx hy hn⟩

/-- `lu` and `li'u` around `t`, `n` times: `lu lu .. li'u li'u`. -/
def deep (lu lihu : Token) (t : List Token) : Nat → List Token
  | 0 => t
  | n + 1 => lu :: deep lu lihu t n ++ [lihu]

/-- **C100.** So a text can be quoted any number of times, one quote around the other. -/
theorem C100_deep (t : List Token) (lu lihu : Token) (h1 : lu.selmaho = .Lu) (h2 : lihu.selmaho = .Lihu) (h : QuotedText t) (n : Nat) :
    IsText (deep lu lihu t n) := by
  suffices QuotedText (deep lu lihu t n) from (C100_quotes _ this).1
  induction n with
  | zero => exact h
  | succ n ih =>
    let k : Token := ⟨false, .Koha, ⟨0, 1⟩⟩
    have hk : QuotedText ([] ++ [k] ++ []) := .plain (by decide +kernel) (by decide) (by decide)
    have := QuotedText.quote (lu := lu) (lihu := lihu) hk ih rfl h1 h2 nofun
    simpa [deep] using this

/-! ### Instances -/

/-- `lu mi viska lu do klama li'u li'u` (made from `lu mi viska ko'a li'u`), and `noi ke'a noi do klama ku'o klama ku'o` (made from
`noi ke'a pe ko'a ge'u klama ku'o`). -/
theorem C100_pieces :
    NestedPiece .SumtiComponent1 (words [.Lu, .Koha, .Gismu] ++ words [.Lu, .Koha, .Gismu, .Lihu] ++ words [.Lihu]) ∧
    NestedPiece .RelativeClause (words [.Noi, .Koha] ++ words [.Noi, .Koha, .Gismu, .Kuho] ++ words [.Gismu, .Kuho]) := by
  have pro : NestedPiece .SumtiComponent1 (words [.Koha]) := .closed (.pronoun _ rfl)
  obtain ⟨f1, h1⟩ := sample_piece .Lu .Lihu [.Koha, .Gismu, .Koha] .SumtiComponent1 (by decide +kernel) (by decide +kernel) (by decide +kernel)
    (by decide +kernel)
  obtain ⟨f2, h2⟩ := sample_piece .Lu .Lihu [.Koha, .Gismu] .SumtiComponent1 (by decide +kernel) (by decide +kernel) (by decide +kernel)
    (by decide +kernel)
  obtain ⟨f3, h3⟩ := sample_piece .Noi .Kuho [.Koha, .Goi, .Koha, .Gehu, .Gismu] .RelativeClause (by decide +kernel) (by decide +kernel) (by decide +kernel)
    (by decide +kernel)
  obtain ⟨f4, h4⟩ := sample_piece .Noi .Kuho [.Koha, .Gismu] .RelativeClause (by decide +kernel) (by decide +kernel) (by decide +kernel)
    (by decide +kernel)
  obtain ⟨f5, h5⟩ := sample_piece .Goi .Gehu [.Koha] .RelativeClause (by decide +kernel) (by decide +kernel) (by decide +kernel)
    (by decide +kernel)
  have ne : ∀ l : List Selmaho, l.getLast? ≠ some .Bahe → NotEmphasised (words l) := by
    intro l hl t ht hb
    apply hl
    unfold words at ht
    rw [List.getLast?_map, Option.map_eq_some_iff] at ht
    obtain ⟨s, hs, rfl⟩ := ht
    rw [hs, ← hb]
  exact ⟨.within (x := words [.Lu, .Koha, .Gismu]) (y := words [.Lihu]) (.closed h1) pro (.closed h2) (ne _ (by decide)),
    .within (x := words [.Noi, .Koha]) (y := words [.Gismu, .Kuho]) (.closed h3) (.closed h5) (.closed h4) (ne _ (by decide))⟩

/-- `mi viska lu do viska lu mi klama li'u li'u`: quotes within quotes. -/
example : QuotedText (words [.Koha, .Gismu] ++ (⟨false, .Lu, ⟨0, 1⟩⟩ :: (words [.Koha, .Gismu] ++ (⟨false, .Lu, ⟨0, 1⟩⟩ :: words [.Koha, .Gismu] ++
    [⟨false, .Lihu, ⟨0, 1⟩⟩]) ++ []) ++ [⟨false, .Lihu, ⟨0, 1⟩⟩]) ++ []) := by
  have h0 : QuotedText (words [.Koha, .Gismu]) := .plain (by decide +kernel) (by decide) (by decide)
  have h1 : QuotedText (words [.Koha, .Gismu] ++ [⟨false, .Koha, ⟨0, 1⟩⟩] ++ []) := .plain (by decide +kernel) (by decide) (by decide)
  have ne : NotEmphasised (words [.Koha, .Gismu]) := by
    intro t ht
    cases ht
    decide
  exact .quote h1 (.quote h1 h0 rfl rfl rfl ne) rfl rfl rfl ne

/-- Quotes that are not closed may be read in another way: `ga ko'a cu klama gi ko'a` is no text, and with the first pronoun replaced by
`lu lu ko'a klama li'u` it is one. -/
theorem C100_conditions : ¬ IsText (toks [.Ga, .Koha, .Cu, .Gismu, .Gi, .Koha]) ∧
    IsText (toks [.Ga, .Lu, .Lu, .Koha, .Gismu, .Lihu, .Cu, .Gismu, .Gi, .Koha]) ∧
    ¬ IsText (toks [.Ga, .Lu, .Lu, .Koha, .Gismu, .Lihu, .Lihu, .Cu, .Gismu, .Gi, .Koha]) := by
  refine ⟨?_, ?_, ?_⟩ <;> decide +kernel

end Sneturfahi.Props
