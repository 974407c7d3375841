import Verif.Proof.CstTree
import Verif.Props.Lex
import Verif.Props.Span

/-!
# Properties of parsing (C45-C50, C52-C54)
-/

namespace Sneturfahi.Props

open Spec

/-- Tokens of the given selmaho, two bytes apart, for examples. -/
def sample (l : List Selmaho) : Toks := ⟨0, l.zipIdx.map (fun (s, i) => ⟨false, s, ⟨2 * i, 2 * i + 1⟩⟩)⟩

/-- The tree of a successful parse, for examples. -/
def tree? (s : Toks) : Option Val :=
  match parseCst .debug s with
  | .val (.ok v) => some v
  | _ => none

/-- The error of a failed parse, for examples. -/
def error? (s : Toks) : Option Located :=
  match parseCst .debug s with
  | .val (.error e) => some e
  | _ => none

/-- The tokens of a text, if there is no lexing error, for examples. -/
def tokens? (text : List Char) : Option (List Token) :=
  match lexAll .debug ⟨0, text⟩ with
  | .val l => l.mapM (fun | .ok t => some t | .error _ => none)
  | _ => none

theorem tree?_some {s : Toks} {v : Val} (h : tree? s = some v) : parseCst .debug s = .val (.ok v) := by
  unfold tree? at h
  split at h
  · rename_i heq; cases h; exact heq
  · cases h

theorem tree?_isSome {s : Toks} (h : (tree? s).isSome = true) : ∃ v, parseCst .debug s = .val (.ok v) := by
  obtain ⟨v, h⟩ := Option.isSome_iff_exists.mp h
  exact ⟨v, tree?_some h⟩

theorem error?_some {s : Toks} {e : Located} (h : error? s = some e) : parseCst .debug s = .val (.error e) := by
  unfold error? at h
  split at h
  · rename_i heq; cases h; exact heq
  · cases h

/-! ### C45: parsing ends -/

/-- **C45.** Every token sequence, at every address, is parsed to a tree or an error, the same in both build
profiles: there is no endless recursion, no endless repetition and no panic. -/
theorem C45_total (s : Toks) : ∃ out, ∀ p, parseCst p s = .val out := by
  obtain ⟨res, h1, h2⟩ := parseCst_eq .debug s
  refine ⟨finish res, fun p => ?_⟩
  obtain ⟨res', h3, h4⟩ := parseCst_eq p s
  rw [h1] at h3
  cases h3
  exact h4

/-- The same for every production, not only the root: on every input it ends, consumes a part of the input (which may
be empty) or fails, and it does not panic. -/
theorem C45_productions (r : CRule) (s : Toks) : ∃ res, runCst r s = .val res := runCst_ends r s

/-- `runCst`, whose definition bounds the depth of the recursion, satisfies the equation of the unbounded
recursion: the bound is never hit. -/
theorem C45_recursion (r : CRule) (s : Toks) : runCst r s = evalGr runCst (cst r) s := by
  rw [← runCst_eq]

/-- nom reports an error when the body of a repetition succeeds without consuming anything; that never happens. -/
theorem C45_repetitions_progress (r : CRule) (s : Toks) (e : Located)
    (h : runCst r s = .val (.error e) ∨ runCst r s = .val (.failure e)) :
    e.error ≠ .nom .many0 ∧ e.error ≠ .nom .many1 ∧ e.error ≠ .nom .manyTill := by
  have hh := runCst_honest r s
  have key : endless e.error = false := by
    rcases h with h | h <;> rw [h] at hh <;> exact hh rfl
  refine ⟨?_, ?_, ?_⟩ <;> intro he <;> rw [he] at key <;> cases key

example : (tree? (sample [.Le, .Gismu, .Cu, .Gismu])).isSome = true := by decide +kernel
example : (tree? (sample [])).isSome = true := by decide +kernel
example : error? (sample [.Koha, .Ku, .Ku]) = some ⟨⟨1, (sample [.Koha, .Ku, .Ku]).list.drop 1⟩, .nom .eof⟩ := by decide +kernel

/-! ### C46: the tree contains the tokens -/

/-- **C46.** The tokens of the tree of a successful parse, from left to right, are the input. -/
theorem C46_tokens (p : Profile) (s : Toks) (root : Val) (h : parseCst p s = .val (.ok root)) : tokens root = s.list := by
  have h1 := parseCst_ok h
  have hs := runCst_sound .Text s
  rw [h1] at hs
  have := hs.1
  simpa [tokensL] using this.symm

/-- `for_each_child` visits everything: the tokens of the children of a value that is not itself a token, in the order
in which they are visited, are the tokens of the value. -/
theorem C46_children (v : Val) (h : ∀ k t, v ≠ .leaf k t) : (v.children.map tokens).flatten = tokens v := by
  rw [← children_tokens h]
  generalize v.children = vs
  induction vs with
  | nil => simp [tokensL]
  | cons v vs ih => simp [tokensL, ih]

/-- A child is a part of its parent, so that the tokens of a child are a contiguous part of those of the parent. -/
theorem C46_child_part (v c : Val) (h : c ∈ v.children) : PartOf c v ∧ tokens c <:+: tokens v :=
  ⟨children_part h, partOf_tokens (children_part h)⟩

example : ((tree? (sample [.Le, .Gismu, .Cu, .Gismu])).map (fun v => tokens v == (sample [.Le, .Gismu, .Cu, .Gismu]).list))
    = some true := by decide +kernel

/-! ### C47: only the selmaho matter -/

theorem keeps_blank : Keeps blank := fun _ => rfl

theorem keeps_id : Keeps id := fun _ => rfl

theorem relabel_id (v : Val) : relabel id v = v := by
  induction v using Val.rec (motive_2 := fun vs => relabelL id vs = vs) with
  | leaf k t => rfl
  | node n fs ih => simpa [relabel] using ih
  | tuple fs ih => simpa [relabel] using ih
  | many vs ih => simpa [relabel] using ih
  | sep first rest ih ih' => simp [relabel, ih, ih']
  | nil => rfl
  | cons v vs ih ih' => simp [relabelL, ih, ih']

theorem map_blank_eq {a b : List Token} (h : a.map Token.selmaho = b.map Token.selmaho) : a.map blank = b.map blank := by
  induction a generalizing b with
  | nil => cases b <;> simp_all
  | cons t a ih =>
    cases b with
    | nil => simp at h
    | cons u b => simp at h; simp [blank, h.1, ih h.2]

theorem sameError_of_move {e e' : Located} {d d' : Nat} (h : e.move blank d = e'.move blank d') : SameError e e' := by
  have hl := congrArg (fun x : Located => x.location.list.length) h
  have he := congrArg (fun x : Located => x.error) h
  simp only [Located.move, move_length] at hl he
  refine ⟨hl, ?_⟩
  generalize e.error = a at he
  generalize e'.error = b at he
  cases a with
  | expectedGot ex g =>
    cases b with
    | expectedGot ex' g' =>
      simp only [CstError.move, CstError.expectedGot.injEq] at he
      refine ⟨he.1, ?_⟩
      have := congrArg (Option.map Token.selmaho) he.2
      simpa [Option.map_map, Function.comp_def, blank] using this
    | _ => cases he
  | _ => cases b <;> first | exact he | cases he

/-- **C47.** If two token sequences have the same selmaho, then, whatever their spans, flags and addresses and in
whatever build profile, both parse or both fail; the trees are equal but for the spans and flags of the tokens, the
errors are of the same kind, equally far from the end, with the same expectations. -/
theorem C47_selmaho_only (p p' : Profile) (s s' : Toks) (h : s.list.map Token.selmaho = s'.list.map Token.selmaho) :
    ∃ out out', parseCst p s = .val out ∧ parseCst p' s' = .val out' ∧ SameOutcome out out' := by
  obtain ⟨out, ho⟩ := C45_total s
  obtain ⟨out', ho'⟩ := C45_total s'
  refine ⟨out, out', ho p, ho' p', ?_⟩
  have h1 := parseCst_move keeps_blank s'.ptr p (ho p) .debug
  have h2 := parseCst_move keeps_blank s.ptr p' (ho' p') .debug
  have heq : s.move blank s'.ptr = s'.move blank s.ptr := by
    simp only [Toks.move, map_blank_eq h, Toks.mk.injEq, and_true]
    omega
  rw [heq, h2] at h1
  have h3 : moveOut blank s.ptr out' = moveOut blank s'.ptr out := by injection h1
  cases out with
  | ok v =>
    cases out' with
    | ok v' => simp only [moveOut, Except.ok.injEq] at h3; exact h3.symm
    | error e => simp [moveOut] at h3
  | error e =>
    cases out' with
    | ok v' => simp [moveOut] at h3
    | error e' => simp only [moveOut, Except.error.injEq] at h3; exact sameError_of_move h3.symm

/-- The address of the slice matters not at all: the tree is the same, an error is moved along. -/
theorem C47_address (p p' : Profile) (ptr d : Nat) (l : List Token) :
    (∀ v, parseCst p ⟨ptr, l⟩ = .val (.ok v) → parseCst p' ⟨ptr + d, l⟩ = .val (.ok v)) ∧
    (∀ e, parseCst p ⟨ptr, l⟩ = .val (.error e) →
      parseCst p' ⟨ptr + d, l⟩ = .val (.error ⟨⟨e.location.ptr + d, e.location.list⟩, e.error⟩)) := by
  have hm : (⟨ptr, l⟩ : Toks).move id d = ⟨ptr + d, l⟩ := by simp [Toks.move]
  constructor
  · intro v h
    have := parseCst_move keeps_id d p h p'
    rw [hm] at this
    rw [this]
    simp [moveOut, relabel_id]
  · intro e h
    have := parseCst_move keeps_id d p h p'
    rw [hm] at this
    rw [this]
    obtain ⟨loc, err⟩ := e
    cases err <;> simp [moveOut, Located.move, Toks.move, CstError.move]

example : (tree? ⟨0, [⟨true, .Koha, ⟨5, 7⟩⟩, ⟨false, .Gismu, ⟨9, 14⟩⟩]⟩).isSome = true ∧
    (tree? (sample [.Koha, .Gismu])).isSome = true := by decide +kernel

/-- Replace each sample token by the one at the same place in `l`. -/
def putBack (l : List Token) (t : Token) : Token :=
  match l[t.span.start / 2]? with
  | some u => if u.selmaho = t.selmaho then u else t
  | none => t

theorem putBack_keeps (l : List Token) : Keeps (putBack l) := by
  intro t
  unfold putBack
  split
  · split
    · assumption
    · rfl
  · rfl

theorem putBack_sample (l : List Token) : (sample (l.map Token.selmaho)).list.map (putBack l) = l := by
  apply List.ext_getElem?
  intro i
  simp only [sample, List.getElem?_map, List.getElem?_zipIdx]
  cases h : l[i]? with
  | none => simp
  | some u =>
    simp [putBack, h, show 2 * i / 2 = i by omega]

/-- One sample decides about all token sequences with the same selmaho: the tree is that of the sample with the tokens
replaced. -/
theorem C47_transfer (sels : List Selmaho) (v : Val) (h : tree? (sample sels) = some v) (p : Profile) (ptr : Nat)
    (l : List Token) (hl : l.map Token.selmaho = sels) : parseCst p ⟨ptr, l⟩ = .val (.ok (relabel (putBack l) v)) := by
  subst hl
  have h1 := parseCst_move (putBack_keeps l) ptr .debug (tree?_some h) p
  have h2 : (sample (l.map Token.selmaho)).move (putBack l) ptr = ⟨ptr, l⟩ := by
    have := putBack_sample l
    simp only [Toks.move, this]
    simp [sample]
  rw [h2] at h1
  exact h1

/-! ### C48: node locations -/

/-- **C48, locations.** For every value of the tree types the start location is the start of its first token and the
end location the end of its last token; both are absent exactly if there are no tokens. -/
theorem C48_locations (v : Val) :
    v.startLocation = (tokens v).head?.map (fun t => t.span.start) ∧
    v.endLocation = (tokens v).getLast?.map (fun t => t.span.stop) ∧
    v.startLocation.isSome = v.endLocation.isSome ∧ (v.startLocation = none ↔ tokens v = []) := by
  have h1 := firstStart_spec.1 v
  have h2 := lastEnd_spec v
  refine ⟨h1, h2, ?_, ?_⟩
  · rw [h1, h2]
    cases tokens v with
    | nil => rfl
    | cons t ts => simp [List.getLast?_cons]
  · rw [h1]
    cases tokens v <;> simp

theorem flagged_part (v : Val) (t : Token) : t ∈ flagged v ↔ PartOf (.leaf .token t) v := by
  induction v using Val.rec (motive_2 := fun vs => t ∈ flaggedL vs ↔ PartOfL (.leaf .token t) vs) with
  | leaf k u =>
    constructor
    · intro h
      cases k <;> simp [flagged] at h
      subst h; exact .self
    · intro h
      cases h
      simp [flagged]
  | node n fs ih =>
    simp only [flagged, ih]
    exact ⟨.node, fun h => by cases h; assumption⟩
  | tuple fs ih =>
    simp only [flagged, ih]
    exact ⟨.tuple, fun h => by cases h; assumption⟩
  | many fs ih =>
    simp only [flagged, ih]
    exact ⟨.many, fun h => by cases h; assumption⟩
  | sep first rest ih ih' =>
    simp only [flagged, List.mem_append, ih, ih']
    exact ⟨fun h => h.elim .sepFirst .sepRest, fun h => by cases h <;> simp_all⟩
  | nil => exact ⟨fun h => by simp [flaggedL] at h, nofun⟩
  | cons v vs ih ih' =>
    simp only [flaggedL, List.mem_append, ih, ih']
    exact ⟨fun h => h.elim .head .tail, fun h => by cases h <;> simp_all⟩

/-- **C48, experimental words.** A node says that it contains experimental words exactly if one of its tokens is
experimental, quote delimiters and quoted text not counted. -/
theorem C48_experimental (v : Val) :
    v.experimental = true ↔ ∃ t, PartOf (.leaf .token t) v ∧ t.experimental = true := by
  rw [experimental_spec, List.any_eq_true]
  simp only [flagged_part]

/-- Every token of a node is a token leaf, a quote delimiter or quoted text. -/
theorem C48_leaves (v : Val) (t : Token) : t ∈ tokens v ↔
    PartOf (.leaf .token t) v ∨ PartOf (.leaf .zoiDelimiter t) v ∨ PartOf (.leaf .zoiText t) v := by
  induction v using Val.rec (motive_2 := fun vs => t ∈ tokensL vs ↔
      PartOfL (.leaf .token t) vs ∨ PartOfL (.leaf .zoiDelimiter t) vs ∨ PartOfL (.leaf .zoiText t) vs) with
  | leaf k u =>
    simp only [tokens, List.mem_singleton]
    constructor
    · rintro rfl
      cases k
      · exact .inl .self
      · exact .inr (.inl .self)
      · exact .inr (.inr .self)
    · rintro (h | h | h) <;> cases h <;> rfl
  | node n fs ih =>
    simp only [tokens, ih]
    exact ⟨fun h => h.imp .node (fun h => h.imp .node .node), fun h => h.imp (fun h => by cases h; assumption)
      (fun h => h.imp (fun h => by cases h; assumption) (fun h => by cases h; assumption))⟩
  | tuple fs ih =>
    simp only [tokens, ih]
    exact ⟨fun h => h.imp .tuple (fun h => h.imp .tuple .tuple), fun h => h.imp (fun h => by cases h; assumption)
      (fun h => h.imp (fun h => by cases h; assumption) (fun h => by cases h; assumption))⟩
  | many fs ih =>
    simp only [tokens, ih]
    exact ⟨fun h => h.imp .many (fun h => h.imp .many .many), fun h => h.imp (fun h => by cases h; assumption)
      (fun h => h.imp (fun h => by cases h; assumption) (fun h => by cases h; assumption))⟩
  | sep first rest ih ih' =>
    simp only [tokens, List.mem_append, ih, ih']
    constructor
    · rintro ((h | h | h) | (h | h | h))
      · exact .inl (.sepFirst h)
      · exact .inr (.inl (.sepFirst h))
      · exact .inr (.inr (.sepFirst h))
      · exact .inl (.sepRest h)
      · exact .inr (.inl (.sepRest h))
      · exact .inr (.inr (.sepRest h))
    · rintro (h | h | h) <;> cases h <;> simp_all
  | nil => simp only [tokensL, List.not_mem_nil, false_iff]; rintro (h | h | h) <;> cases h
  | cons v vs ih ih' =>
    simp only [tokensL, List.mem_append, ih, ih']
    constructor
    · rintro ((h | h | h) | (h | h | h))
      · exact .inl (.head h)
      · exact .inr (.inl (.head h))
      · exact .inr (.inr (.head h))
      · exact .inl (.tail h)
      · exact .inr (.inl (.tail h))
      · exact .inr (.inr (.tail h))
    · rintro (h | h | h) <;> cases h <;> simp_all

/-- A text with an experimental word (`xe'o`) whose tree says that it contains none: the word is taken for the
ending delimiter of the quote. -/
theorem C48_experimental_quoted : ∃ toks root, lexAll .debug ⟨0, c!"zoi gy gy xe'o"⟩ = .val (toks.map .ok) ∧
    parseCst .debug ⟨0, toks⟩ = .val (.ok root) ∧ (∃ t ∈ tokens root, t.experimental = true) ∧ root.experimental = false := by
  let toks : List Token := [⟨false, .Zoi, ⟨0, 3⟩⟩, ⟨false, .ZoiDelimiter, ⟨4, 6⟩⟩, ⟨false, .ZoiDelimiter, ⟨7, 9⟩⟩, ⟨true, .Ui, ⟨10, 14⟩⟩]
  have h1 : lexAll .debug ⟨0, c!"zoi gy gy xe'o"⟩ = .val (toks.map .ok) := by decide +kernel
  have h2 : ((tree? ⟨0, toks⟩).map (fun v => !v.experimental)) = some true := by decide +kernel
  obtain ⟨root, h3, h4⟩ := Option.map_eq_some_iff.mp h2
  have h5 := tree?_some h3
  refine ⟨toks, root, h1, h5, ⟨⟨true, .Ui, ⟨10, 14⟩⟩, ?_, rfl⟩, by simpa using h4⟩
  rw [C46_tokens _ _ _ h5]
  simp [toks]

/-! ### C49: errors point into the input -/

/-- **C49.** The location of a parse error is a tail of the input slice (the address fits, too).  If the error says
which token was found, that is the one just before the location; if it says that the end was found, the location is the
end; and what was found is never among what was expected, which is never empty. -/
theorem C49_errors (p : Profile) (s : Toks) (e : Located) (h : parseCst p s = .val (.error e)) :
    ∃ read, s.list = read ++ e.location.list ∧ e.location.ptr = s.ptr + read.length ∧
      ∀ ex got, e.error = .expectedGot ex got → ex ≠ [] ∧
        (got = none → e.location.list = []) ∧
        (∀ t, got = some t → (∃ before, read = before ++ [t]) ∧ t.selmaho ∉ ex) := by
  have key : ErrOK s e := by
    rcases parseCst_error h with ⟨rest, v, h1, _, rfl⟩ | h1
    · have hs := runCst_sound .Text s
      rw [h1] at hs
      exact ⟨_, hs, trivial⟩
    · have hs := runCst_sound .Text s
      rw [h1] at hs
      exact hs
  obtain ⟨read, ⟨h1, h2⟩, h3⟩ := key
  refine ⟨read, h1, h2, ?_⟩
  intro ex got he
  rw [he] at h3
  cases got with
  | none => exact ⟨h3.1, fun _ => h3.2, by simp⟩
  | some t => exact ⟨h3.1, by simp, fun t' ht' => by cases ht'; exact h3.2⟩

example : error? (sample [.Tei, .By, .Koha]) = some ⟨⟨3, []⟩, .expectedGot [.Foi] (some ⟨false, .Koha, ⟨4, 5⟩⟩)⟩ := by
  decide +kernel

/-! ### C50: empty quotes -/

/-- **C50, an empty quote alone.** `zoi gy gy` is lexed without error to three tokens, which do not parse. -/
theorem C50_empty_quote : ∃ toks : List Token, lexAll .debug ⟨0, c!"zoi gy gy"⟩ = .val (toks.map .ok) ∧
    ∃ e, ∀ p, parseCst p ⟨0, toks⟩ = .val (.error e) := by
  refine ⟨[⟨false, .Zoi, ⟨0, 3⟩⟩, ⟨false, .ZoiDelimiter, ⟨4, 6⟩⟩, ⟨false, .ZoiDelimiter, ⟨7, 9⟩⟩], by decide +kernel, ?_⟩
  have h : (error? ⟨0, [⟨false, .Zoi, ⟨0, 3⟩⟩, ⟨false, .ZoiDelimiter, ⟨4, 6⟩⟩, ⟨false, .ZoiDelimiter, ⟨7, 9⟩⟩]⟩).isSome = true := by
    decide +kernel
  obtain ⟨e, he⟩ := Option.isSome_iff_exists.mp h
  obtain ⟨out, ho⟩ := C45_total ⟨0, [⟨false, .Zoi, ⟨0, 3⟩⟩, ⟨false, .ZoiDelimiter, ⟨4, 6⟩⟩, ⟨false, .ZoiDelimiter, ⟨7, 9⟩⟩]⟩
  have h1 := ho .debug
  rw [error?_some he] at h1
  cases h1
  exact ⟨e, ho⟩

theorem partOf_relabel (f : Token → Token) {v w : Val} (h : PartOf v w) : PartOf (relabel f v) (relabel f w) := by
  induction h using PartOf.rec (motive_2 := fun ws _ => PartOfL (relabel f v) (relabelL f ws)) with
  | self => exact .self
  | node _ ih => exact .node ih
  | tuple _ ih => exact .tuple ih
  | many _ ih => exact .many ih
  | sepFirst _ ih => exact .sepFirst ih
  | sepRest _ ih => exact .sepRest ih
  | head _ ih => exact .head ih
  | tail _ ih => exact .tail ih

/-- Does a quote occur in a tree?  For examples. -/
def hasQuote : Val → List Token → Bool
  | .leaf _ _, _ => false
  | .node .ZoiSumti [.leaf .token a, .leaf .zoiDelimiter b, .leaf .zoiText c, .leaf .zoiDelimiter d], l => l == [a, b, c, d]
  | .node _ fs, l => anyQuote fs l
  | .tuple fs, l => anyQuote fs l
  | .many vs, l => anyQuote vs l
  | .sep first rest, l => hasQuote first l || anyQuote rest l
where
  /-- Does a quote occur in one of several trees? -/
  anyQuote : List Val → List Token → Bool
  | [], _ => false
  | v :: vs, l => hasQuote v l || anyQuote vs l

theorem hasQuote_part (a b c d : Token) (v : Val) (h : hasQuote v [a, b, c, d] = true) :
    PartOf (.node .ZoiSumti [.leaf .token a, .leaf .zoiDelimiter b, .leaf .zoiText c, .leaf .zoiDelimiter d]) v := by
  induction v using Val.rec (motive_2 := fun vs => hasQuote.anyQuote vs [a, b, c, d] = true →
      PartOfL (.node .ZoiSumti [.leaf .token a, .leaf .zoiDelimiter b, .leaf .zoiText c, .leaf .zoiDelimiter d]) vs) with
  | leaf k t => simp [hasQuote] at h
  | node n fs ih =>
    unfold hasQuote at h
    split at h
    · cases ‹Val.node n fs = _›
    · rename_i heq
      cases heq
      simp at h
      obtain ⟨rfl, rfl, rfl, rfl⟩ := h
      exact .self
    · rename_i heq
      cases heq
      exact .node (ih h)
    all_goals (rename_i heq; cases heq)
  | tuple fs ih => exact .tuple (ih (by simpa [hasQuote] using h))
  | many fs ih => exact .many (ih (by simpa [hasQuote] using h))
  | sep first rest ih ih' =>
    simp only [hasQuote, Bool.or_eq_true] at h
    rcases h with h | h
    · exact .sepFirst (ih h)
    · exact .sepRest (ih' h)
  | nil => rename_i h; simp [hasQuote.anyQuote] at h
  | cons v vs ih ih' =>
    rename_i h
    simp only [hasQuote.anyQuote, Bool.or_eq_true] at h
    rcases h with h | h
    · exact .head (ih h)
    · exact .tail (ih' h)

/-- **C50, quotes with text.**  The four tokens of a delimited quote with text in it, whatever their spans, parse,
and the quote is a part of the tree. -/
theorem C50_text_quote (p : Profile) (ptr : Nat) (a b c d : Token)
    (h : [a, b, c, d].map Token.selmaho = [.Zoi, .ZoiDelimiter, .AnyText, .ZoiDelimiter]) :
    ∃ root, parseCst p ⟨ptr, [a, b, c, d]⟩ = .val (.ok root) ∧
      PartOf (.node .ZoiSumti [.leaf .token a, .leaf .zoiDelimiter b, .leaf .zoiText c, .leaf .zoiDelimiter d]) root := by
  have hq : ((tree? (sample [.Zoi, .ZoiDelimiter, .AnyText, .ZoiDelimiter])).map (fun v =>
      hasQuote v (sample [.Zoi, .ZoiDelimiter, .AnyText, .ZoiDelimiter]).list)) = some true := by decide +kernel
  obtain ⟨v, hv, hh⟩ := Option.map_eq_some_iff.mp hq
  refine ⟨_, C47_transfer _ v hv p ptr _ h, ?_⟩
  have := partOf_relabel (putBack [a, b, c, d]) (hasQuote_part _ _ _ _ v hh)
  have hm := putBack_sample [a, b, c, d]
  rw [h] at hm
  simp only [sample, List.zipIdx, List.map, List.cons.injEq, and_true] at hm
  obtain ⟨e1, e2, e3, e4⟩ := hm
  simp only [relabel, relabelL] at this
  simp only [Nat.zero_add, Nat.mul_zero] at e1 e2 e3 e4 this
  rw [e1, e2, e3, e4] at this
  exact this

/-! ### C52: which errors there are -/

/-- **C52.** A parse error is one of these: `Eof` at the first of some tokens that are left over; or, after a token `lo'u`,
`Eof` at the very end; or, after a token `tei`, that `fo'i` was expected (or that it is followed by `bu` or `zei`); or, after
a token `ga'o`, the same about another `ga'o`. -/
theorem C52_errors (p : Profile) (s : Toks) (e : Located) (h : parseCst p s = .val (.error e)) :
    (e.error = .nom .eof ∧ e.location.list ≠ []) ∨
    (e.error = .nom .eof ∧ e.location.list = [] ∧ ∃ t ∈ s.list, t.selmaho = .Lohu) ∨
    (∃ o c, (o = Selmaho.Tei ∧ c = Selmaho.Foi ∨ o = .Gaho ∧ c = .Gaho) ∧ (∃ t ∈ s.list, t.selmaho = o) ∧
      (e.error = .nom .not ∨ ∃ ex got, e.error = .expectedGot ex got ∧ ∀ x ∈ ex, x = c)) := by
  rcases parseCst_error h with ⟨rest, v, h1, h2, rfl⟩ | h1
  · exact Or.inl ⟨rfl, h2⟩
  · have := runCst_err .Text s
    rw [h1] at this
    obtain ⟨o, hc, ho⟩ := this [] rfl
    rcases ho with ho | ho
    · cases ho
    rcases hc with ⟨rfl, hc, hl⟩ | ⟨c, hc, he⟩
    · exact Or.inr (Or.inl ⟨by rw [hc], hl, ho⟩)
    · refine Or.inr (Or.inr ⟨o, c, ?_, ho, he⟩)
      unfold closer at hc
      split at hc <;> simp at hc
      · exact Or.inl ⟨rfl, hc.symm⟩
      · exact Or.inr ⟨rfl, hc.symm⟩

/-- So without `lo'u`, `tei` and `ga'o` the error only says how far parsing came. -/
theorem C52_plain (p : Profile) (s : Toks) (e : Located) (h : parseCst p s = .val (.error e))
    (hs : ∀ t ∈ s.list, t.selmaho ∉ [Selmaho.Lohu, .Tei, .Gaho]) : e.error = .nom .eof ∧ e.location.list ≠ [] := by
  rcases C52_errors p s e h with h | ⟨_, _, t, ht, h⟩ | ⟨o, c, ho, ⟨t, ht, h⟩, _⟩
  · exact h
  · exact absurd (hs t ht) (by simp [h])
  · refine absurd (hs t ht) ?_
    rcases ho with ⟨rfl, _⟩ | ⟨rfl, _⟩ <;> simp [h]

/-- All four kinds occur. -/
theorem C52_occur :
    (error? (sample [.Koha, .Ku])).map Located.error = some (.nom .eof) ∧
    (error? (sample [.Lohu, .Koha])).map Located.error = some (.nom .eof) ∧
    (error? (sample [.Tei, .By])).map Located.error = some (.expectedGot [.Foi] none) ∧
    (error? (sample [.Koha, .Gaho, .Bihi, .Koha])).map Located.error = some (.expectedGot [.Gaho] (some ⟨false, .Koha, ⟨6, 7⟩⟩)) ∧
    (error? (sample [.Koha, .Gaho, .Bihi, .Gaho, .Bu, .Koha])).map Located.error = some (.nom .not) := by
  refine ⟨?_, ?_, ?_, ?_, ?_⟩ <;> decide +kernel

/-! ### C53: the tree is one the type definitions allow -/

/-- **C53.** The tree of a successful parse conforms to the type definitions: every node has the fields of its struct or
variant, in order, every word the right selmaho, and the conditions attached to the types hold. -/
theorem C53_conforms (p : Profile) (s : Toks) (root : Val) (h : parseCst p s = .val (.ok root)) :
    Formed cst (.call .Text) [root] := by
  have hc := runCst_conforms .Text s
  rw [parseCst_ok h] at hc
  exact (hc _ _ rfl).1

/-! ### C54: nodes of a text -/

/-- The tokens lie one after another. -/
def InOrder (toks : List Token) : Prop :=
  (∀ t ∈ toks, t.span.start ≤ t.span.stop) ∧ toks.Pairwise (fun a b => a.span.stop ≤ b.span.start)

theorem inOrder_of_lex {p : Profile} {input : Str} (h : input.len < 2 ^ 32) {toks : List Token}
    (hl : lexAll p input = .val (toks.map .ok)) : InOrder toks := by
  obtain ⟨h1, h2⟩ := C35_spans p input h _ hl
  refine ⟨fun t ht => (h1 t (List.mem_map.mpr ⟨t, ht, rfl⟩)).1, ?_⟩
  clear hl h1
  induction toks with
  | nil => exact .nil
  | cons a toks ih =>
    refine List.pairwise_cons.mpr ⟨?_, ih ?_⟩
    · intro b hb
      obtain ⟨mid, post, rfl⟩ := List.append_of_mem hb
      exact h2 [] a (mid.map .ok) b (post.map .ok) (by simp)
    · intro pre a' mid b' post he
      exact h2 (.ok a :: pre) a' mid b' post (by simp [he])

theorem InOrder.infix {a b : List Token} (h : InOrder b) (hi : a <:+: b) : InOrder a :=
  ⟨fun t ht => h.1 t (hi.subset ht), h.2.sublist hi.sublist⟩

/-- The first token starts before the last one ends. -/
theorem InOrder.start_le {toks : List Token} (h : InOrder toks) {a b : Token} (ha : toks.head? = some a) (hb : b ∈ toks) :
    a.span.start ≤ b.span.start := by
  cases toks with
  | nil => simp at ha
  | cons c toks =>
    simp at ha
    subst ha
    rcases List.mem_cons.mp hb with rfl | hb
    · exact Nat.le_refl _
    · have h1 := h.1 c (by simp)
      have h2 := (List.pairwise_cons.mp h.2).1 b hb
      omega

theorem InOrder.le_stop {toks : List Token} (h : InOrder toks) {a b : Token} (ha : toks.getLast? = some a) (hb : b ∈ toks) :
    b.span.stop ≤ a.span.stop := by
  obtain ⟨ys, rfl⟩ := List.getLast?_eq_some_iff.mp ha
  rcases List.mem_append.mp hb with hb | hb
  · have h1 := h.1 a (by simp)
    have h2 := (List.pairwise_append.mp h.2).2.2 b hb a (by simp)
    omega
  · rw [List.mem_singleton.mp hb]
    exact Nat.le_refl _

/-- **C54.** Take any text that is lexed without error and parsed, and any part of the tree that is not empty.  From its
start location to its end location is a range of the text that can be sliced without panic, within the range of
every part it belongs to. -/
theorem C54_slices (p p' : Profile) (input : Str) (h : input.len < 2 ^ 32) (toks : List Token)
    (hl : lexAll p input = .val (toks.map .ok)) (ptr : Nat) (root : Val) (hp : parseCst p' ⟨ptr, toks⟩ = .val (.ok root))
    (v : Val) (hv : PartOf v root) (a b : Nat) (ha : v.startLocation = some a) (hb : v.endLocation = some b) :
    a ≤ b ∧ (∃ t, (Span.mk a b).slice input = some t) ∧
    ∀ w, PartOf v w → PartOf w root → ∃ a' b', w.startLocation = some a' ∧ w.endLocation = some b' ∧ a' ≤ a ∧ b ≤ b' := by
  have ho := inOrder_of_lex h hl
  have ht := C46_tokens p' ⟨ptr, toks⟩ root hp
  simp only at ht
  obtain ⟨hspan, _⟩ := C35_spans p input h _ hl
  obtain ⟨e1, e2, _, _⟩ := C48_locations v
  rw [e1] at ha
  rw [e2] at hb
  obtain ⟨ta, hta, rfl⟩ := Option.map_eq_some_iff.mp ha
  obtain ⟨tb, htb, rfl⟩ := Option.map_eq_some_iff.mp hb
  have hi := partOf_tokens hv
  rw [ht] at hi
  have hov := ho.infix hi
  have ma : ta ∈ tokens v := List.mem_of_mem_head? (by rw [hta]; rfl)
  have mb : tb ∈ tokens v := List.mem_of_getLast? htb
  have hle : ta.span.start ≤ tb.span.stop := by
    have := hov.start_le hta mb
    have := hov.1 tb mb
    omega
  refine ⟨hle, ?_, ?_⟩
  · have sa := (hspan ta (List.mem_map.mpr ⟨ta, hi.subset ma, rfl⟩)).2.2
    have sb := (hspan tb (List.mem_map.mpr ⟨tb, hi.subset mb, rfl⟩)).2.2
    obtain ⟨_, sa, _⟩ := sa
    obtain ⟨_, sb, _⟩ := sb
    have ba := (C04_slice_some_iff ta.span input).mp ⟨_, sa⟩
    have bb := (C04_slice_some_iff tb.span input).mp ⟨_, sb⟩
    exact (C04_slice_some_iff ⟨ta.span.start, tb.span.stop⟩ input).mpr ⟨hle, ba.2.1, bb.2.2⟩
  · intro w hvw hw
    have hiw := partOf_tokens hvw
    have how := ho.infix (by rw [← ht]; exact partOf_tokens hw)
    obtain ⟨f1, f2, _, _⟩ := C48_locations w
    have mwa := hiw.subset ma
    have mwb := hiw.subset mb
    cases hw1 : tokens w with
    | nil => rw [hw1] at mwa; cases mwa
    | cons c cs =>
      have hh : (tokens w).head? = some c := by rw [hw1]; rfl
      obtain ⟨d, hd⟩ : ∃ d, (tokens w).getLast? = some d := by
        rw [hw1]; exact ⟨_, List.getLast?_cons ..⟩
      refine ⟨c.span.start, d.span.stop, by rw [f1, hh]; rfl, by rw [f2, hd]; rfl, how.start_le hh mwa, how.le_stop hd mwb⟩

/-- Siblings are in order: of two children of a node, the one visited first ends before the other one starts. -/
theorem C54_siblings (p p' : Profile) (input : Str) (h : input.len < 2 ^ 32) (toks : List Token)
    (hl : lexAll p input = .val (toks.map .ok)) (ptr : Nat) (root : Val) (hp : parseCst p' ⟨ptr, toks⟩ = .val (.ok root))
    (v : Val) (hv : PartOf v root) (pre mid post : List Val) (c d : Val) (hc : v.children = pre ++ c :: (mid ++ d :: post))
    (b a : Nat) (hb : c.endLocation = some b) (ha : d.startLocation = some a) : b ≤ a := by
  have ho := inOrder_of_lex h hl
  have ht := C46_tokens p' ⟨ptr, toks⟩ root hp
  have hi := partOf_tokens hv
  rw [ht] at hi
  have hov := ho.infix hi
  have hleaf : ∀ k t, v ≠ .leaf k t := by
    rintro k t rfl
    simp [Val.children] at hc
  have htok := children_tokens hleaf
  rw [hc] at htok
  simp only [tokensL_append, tokensL] at htok
  rw [← htok] at hov
  obtain ⟨_, e2, _, _⟩ := C48_locations c
  obtain ⟨f1, _, _, _⟩ := C48_locations d
  rw [e2] at hb
  rw [f1] at ha
  obtain ⟨tb, htb, rfl⟩ := Option.map_eq_some_iff.mp hb
  obtain ⟨ta, hta, rfl⟩ := Option.map_eq_some_iff.mp ha
  have mb : tb ∈ tokens c := List.mem_of_getLast? htb
  have ma : ta ∈ tokens d := List.mem_of_mem_head? (by rw [hta]; rfl)
  have hpw := (List.pairwise_append.mp hov.2).2.1
  exact (List.pairwise_append.mp hpw).2.2 tb mb ta (List.mem_append_right _ (List.mem_append_left _ ma))

end Sneturfahi.Props
