# Formal model of sneturfahi in Lean 4

## Layers

| Layer | Lean module | Models |
|---|---|---|
| primitives | `Verif/Model/Prim.lean` | panics and divergence (`Exec`), `&str` with addresses (`Str`), `u32` arithmetic per build profile |
| spans | `Verif/Model/Span.lean` | `src/span.rs`, all functions |
| PEG combinators | `Verif/Model/Peg.lean` | `src/rules.rs:41-200` with their pointer arithmetic |
| morphology rules | `Verif/Model/Rules.lean` (generated by `tools/gen_rules.py`) | the 118 rule functions of `src/rules.rs:209-898` |
| decomposer | `Verif/Model/Decompose.lean` | `src/decompose/mod.rs` |
| selmaho | `Verif/Model/Selmaho.lean`, `ClassifyTable.lean` (generated by `tools/gen_selmaho.py`), `Classify.lean` | `src/lex/selmaho/*` |
| lexer | `Verif/Model/Lex.lean` | `src/lex/mod.rs`, `src/lex/token.rs` |
| parser | `Verif/Model/Cst*.lean` | `src/parse/**`, the derive macros of `macros/src` as expanded on the rule types |

Each function of the Rust source becomes a Lean function; `&mut self` methods return the new state;
a Rust panic is the value `Exec.panic`; an endless loop or recursion is `Exec.diverge` (fuel runs out).
The generated tables are translated mechanically from the source text, the generators are committed; the grammar
of the parser, the word rules and the tables of cmavo are moreover checked by the kernel against the verbatim text of
the source (C79-C82), which `tools/gen_source.py` only copies: there the trusted parts are `Model/Rust.lean`,
`Model/Derive.lean`, `Model/RuleText.lean` and `Model/TableText.lean`, which read Rust.

## Trusted base

* Lean 4.33.0's kernel. Every property theorem depends on at most the axioms `propext`,
  `Classical.choice`, `Quot.sound` (checked with `#print axioms`).
* The reading of the Rust code. No Rust is run here; each definition cites the lines it models. The
  model is executable, and it reproduces the expected outputs of the repository's own tests
  (the decomposition and the lexing of `src/srasu.txt`, 1334 words each, the smaller unit tests, and the parser tests: of the sentences of `src/parse/cst/tests.rs` the
  compiled model lexes and parses every one that is not commented out there; those commented out with "todo erasure" it rejects when
  they use `si` or `sa`).
* Semantics of the Rust standard library and of nom 7 as described in the comments of the model
  (`str::split`, `Peekable`, `str::get`, `trim_end_matches`, `min_by_key`, `from_utf8`, ..).

The nom combinators are modelled from the published source of nom 7.1 (`alt`, `many0`, `many1`, `many_till`,
`separated_list`, `opt`, `cut`, `not`, `peek`, `eof`), including the "no progress" errors of the repetitions; the
derive macros from `macros/src/derive_parse.rs` and `derive_tree_node.rs`.

Not modelled: of `examples/main.rs` the reading of the command line by `argh`, the log of `--verbose`, the messages of panics, and errors of the operating system when reading or writing. Of
the characters printed, these are parameters (`Surroundings`) over which the theorems quantify: which characters outside ASCII `core` prints unescaped, the size of
the arena, the texts of failed post-conditions and of `Empty` errors (paths as the compiler writes them), addresses. Not modelled either: memory (bump arena allocation; stack depth only as the nesting of calls, C88 and C101: a deeply nested input could overflow the
stack of the real program), time, `usize` overflow, log output.

## How the properties are proved

* **PEG meta-theory** (C06, C07): a general theorem about any grammar. A well-formedness certificate
  (a table "this rule consumes on success", a rank for same-position calls) is checked by the kernel
  for the actual 118 rules, and implies termination with a bound, no panic, and
  `matched ++ rest = input`. From it a pure function `parse : Rule → List Char → Option (List Char × List Char)`
  with the expected unfolding equation is obtained; the executable model is proved to compute it.
* **Language-level facts about rules** (C09-C15, C28): inductions over the derivation of a parse,
  uniform in the grammar, whose side conditions (which characters occur in which `one_of`) are checked
  on the rule table by the kernel.
* **Decomposer** (C20-C32): invariants of `fallLoop`, then of `next`/`next_no_decomposition` on states.
* **Lexer** (C33-C43): refinement of the state machine to a one-pass specification over the pieces of
  the text.
  `Spec/Lexing.lean` gives the declarative reading rules (`Reads`), proved to describe the output and to determine it (C51).
* **Parser** (C45-C50, C52-C54): the rule types become a token grammar; meta-theorems about nom combinators by
  induction on a big-step relation, again with a kernel-checked certificate.

## Plan per property

| Property | What is modelled | How it is proved |
|---|---|---|
| C01-C05 | `Span` over `Nat` with explicit u32 checks | case analysis, induction on the character list for slicing |
| C06, C07 | rules as data, combinators as functions | certificate + meta-theorem |
| C08, C16-C19 | `classify`, byte level transformation, table | byte/character lemma; kernel evaluation over the whole finite table lifted to all respellings |
| C09-C13 | rules | derivation induction |
| C14, C15, C28 | rules under character maps and comma removal | simulation between derivations |
| C20-C27, C29-C32 | `Decomposer` | invariants; refinement to per-chunk specification |
| C33-C43 | `Lexer` | refinement to a specification on chunks |
| C44 | level counter semantics of `debug_rule` | instrumented evaluator, erasure theorem |
| C55 | number of trace messages as a lower bound of the calls made (`Model/TraceApi.lean`) | recurrence for `nucleus` on runs of y; no polynomial bound |
| C56 | the closure of `examples/main.rs` (`Model/Main.lean`), its output as data | totality of its parts; sliceability from C21, C35, C54 |
| C57 | `print_tree_node` | induction on the size of the tree; outline as an inductive relation (`Spec/Outline.lean`) |
| C58 | as C56 | C63 composed with C56; the general claim refuted by a text |
| C59 | trees as derivations of the grammar (`Spec.Formed`) | induction on derivations with a certificate per production |
| C60 | as C09, C13 | abstract evaluation of the rules on words given by a set of letters per place (`Proof/Window.lean`), checked by the kernel for the finitely many patterns and proved sound for all words of the pattern |
| C61 | `decompose_single` and the rules it uses; `Spec/Compound.lean` | induction on the words; each step by pattern evaluation (`Proof/Window.lean`) and certificates (`Proof/Needs.lean`) |
| C62 | rules | certificate: least number of vowels per rule |
| C63, C64 | CST parser | simulation of the runs on `l` and on `l ++ tail` by induction on the recursion depth, with certificates for the lookaheads (`Proof/CstEnd.lean`) |
| C65 | CST grammar | induction on `Spec.Formed` with a certificate: which constructs have tokens (`Proof/CstEmpty.lean`) |
| C66 | CST parser | `Spec/Peg.lean`: the grammar as rules of inference; every combinator computes them, they are deterministic (`Proof/CstPegSpec.lean`) |
| C67 | CST grammar | C66 and a certificate for the absence; for the presence, texts evaluated by the kernel (`Proof/CstCover.lean`) |
| C68 | CST parser | from C66: each node is what its production makes of the tokens at its place (`Proof/CstPlace.lean`) |
| C69, C70 | CST grammar | C66, and an evaluator for all token sequences of a pattern at once (`Proof/CstScene.lean`, proved sound), run by the kernel |
| C71 | rules, classify | soundness of `cmavo_form` by inversion of derivations, completeness by induction on the vowels with windows for one vowel group; the table by a checker run by the kernel |
| C72 | decompose | C71 for the words that fall off; induction on the falling off for the last word |
| C73 | grammar | abstract evaluation (dead/null/unknown, certified by the kernel) of all productions before `ni'o`; the endings certificate of C63/C64 relating parses of `A` and of `A ni'o B`; induction on the length |
| C74 | grammar | simulation of readings of `A` by readings of `A .i B` (induction on readings, tables certified by the kernel); abstract evaluation before words that have nothing to do with `.i` |
| C75 | grammar | induction on readings: after a word has taken its indicators, reading an indicator does not apply; witnesses for all other optional fields computed by the kernel |
| C76 | grammar | the same lemma, at the places where such nodes are made |
| C77 | grammar | relational simulation: a certificate (tables checked by the kernel) that every production reads related token sequences with related outcomes, with the words as base cases |
| C78 | grammar | the relational simulation of C77 for sequences with the same kinds of words; `TanruUnit2` by its parts (a deep induction hypothesis) |
| C79 | the text of `src/parse/cst/rules/*.rs` (`Model/Source.lean`), a reader for its declarations (`Model/Rust.lean`), `macros/src/derive_parse.rs` (`Model/Derive.lean`) | the macro applied to the text is evaluated by the kernel and compared with `cst`, `wordKind`, `NodeName.text`, `NodeName.passthrough`, for all types |
| C80 | `Spec/Decl.lean` says, without the model of the macro, what a declaration reads: relations between token sequences and outcomes for "in order", "first that applies", "repeated", "unless", "or fail" and the attributes. `Props/Decl.lean` proves for every item that the parser `Model/Derive.lean` makes of it (the translation of `derive_parse.rs`) is that relation, and for every production of the verbatim source that the grammar reads it so. Fields with one `Span` (leaf tokens), handwritten impls excepted. Finding: a field-level `not_after` generates `nom::combinator:not` and does not compile. |
| C81 | `Model/RulesText.lean` is the verbatim text of `src/rules.rs`; `Model/RuleText.lean` reads it: a small `macro_rules!` expander for the three macros that declare rules and a reader for bodies made of the combinators. The kernel evaluates this and compares it with `grammar`, rule by rule and in order. |
| C82 | The verbatim text of `src/lex/selmaho/*.rs` (`Model/SelmahoText.lean`), read by `Model/TableText.lean` (enum variants, string constants, arms of a `match`). Kernel evaluation gives the table; a lemma about first arms turns it into a statement about every word. |
| C83 | rules, classify | a sequence of sounds determines, by induction from its right end, what each of the rules nucleus, glide, h, digit and the seventeen letters answers on its text; soundness of the repetition adds one sound per round, completeness consumes one; the pair and triple conditions by tables checked by the kernel |
| C84 | rules, classify | equations for what each combinator leaves of a text (`Proof/Ans.lean`); on sequences of sounds the outcome of every rule for rafsi is computed from the next few sounds, the rules that look for stress and for fu'ivla fail because two vowels in different syllables are left (`Proof/Sounds.lean`, `Rafsi.lean`, `Lujvo.lean`, `LujvoTail.lean`); induction over the rafsi from the end (`LujvoWhole.lean`); the form in letters is turned into sounds (`LujvoForm.lean`); not a name by C83, not a cmavo by C71, not a gismu by C09 |
| C85 | rules, classify | the rules that consume a y fail; inversion of the remaining alternatives, induction on the length (`LujvoInv.lean`); pairs by C13. Words with y are not covered: there fu'ivla act as rafsi |
| C86 | decompose, rules; `Spec/Whole.lean` | C61 for the cmavo before; on the sounds of the lujvo (C84) the outcome of `cmavo_minimal` and `post_word` at its start, case by case for how it begins (`Proof/Whole.lean`) |
| C87 | grammar; `Spec/Elide.lean` | a certificate on the productions (which may succeed on the last word alone, which may take it in an optional part, which can succeed at the end; checked by the kernel) and an induction over readings that relates reading `A t` and reading `A` (`Proof/Elide.lean`) |
| C88 | `Model/CstWork.lean`: the parser once more, counting calls of `Parse::parse` and their nesting | erasure to `parseCst` and depth at most the room given, by induction on the grammar and the room; more room changes nothing (a monotonicity argument); lower bounds by induction on the number of `ba'e` (`Proof/CstBahes.lean`) |
| C89 | `lexAll`, `parseCst`; spec `Spec/Written.lean` (`ReadAs`, `Grammatical` on strings) | locality of reading (C42) composed with C73, C74, C77, C78, C87, C88; whether tokens are a text depends on their selma'o only |
| C90 | rules, classify; `Spec/Fuhivla.lean` (sounds of C83, syllables, rafsi, falling apart) | on the sounds of a word: the rules for onsets, codas and consonantal syllables in closed form (`FuInit`, `FuSyll`, `FuWalk`), the lookaheads for rafsi via C84/C85 (`FuRafsi`), the recursion of brivla, cmavo and fu'ivla by induction on the length (`FuApart`, `FuWord`). Words with y are not covered |
| C91 | the same | from C90: a word beginning with one consonant and a vowel, or a vowel, either splits after its cmavo form or has two consonants there (`FuBack`) |
| C92 | rules, classify; `ContentForm` (recursion on the length) | C60, C71, C83, C85, C90 together; only shorter words matter for falling apart |
| C93 | decompose, rules; `Spec/Division.lean` | on sounds that go together `cmavo_minimal` takes exactly one particle (`FuWord`), and `post_word` looks for a word with content; induction on the number of particles (`Props/Division.lean`) |
| C94 | rules, classify | a certificate: expressions that never consume a letter of a kind, where a failed `y` is remembered up to the nucleus (`Proof/Never.lean`, induction over derivations) |
| C95 | grammar; `Spec/Repeat.lean` | a certificate for each kind of word (which productions may end after the first of two such words, and what then reads on from the second one exactly what would have been read; checked by the kernel) and an induction over readings that relates reading `A b B` and `A x b B` (`Proof/Dup.lean`, `Proof/DupTabs.lean`) |
| C96 | `repl`, `main`, formatting (`Model/Print.lean`); `Spec/Program.lean` | from C56, and the parser on token slices at different addresses related by an induction over the grammar (`Proof/Address.lean`); sessions by induction on the lines |
| C97 | the same; `Spec/Said.lean` (what a printed item says) | each printed form is shown to be uniquely decodable when anything follows it (`Proof/ReadBack.lean`), then trees are rebuilt from the indentation of their lines |
| C98 | the same grammar; `Spec/Swap.lean` (closed pieces, trees that differ in one place) | two texts that differ in one piece are read in lock step: induction over derivations with a certificate, checked for each production, that nothing but the production of the piece begins to read it (`Proof/Block.lean`); what is between the brackets is read in the same way when the closing word follows (`Proof/CstEnd.lean`, `Proof/BlockTabs.lean`, `Proof/BlockPieces.lean`) |
| C99 | lexer and grammar together, on strings (`Spec/Written.lean`) | C98 and C95 for tokens, carried over to strings by the locality of the lexer (C42, C89): `Props/WrittenMore.lean` |
| C100 | the same; `Spec/Nest.lean` (nested pieces, texts with closed quotes) | induction over the nesting, each step an exchange of C98 in a larger context |
| C101 | the counted parser of C88 and, in `Model/RulesWork.lean`, the word rules with their calls counted | induction over the room for recursion, with the rank of a rule and the length of its input: the calls on a shorter input are at most half as many as on a longer one, so a repetition makes at most twice as many as its first round; the messages by a simulation of the traced rules; for decomposing, classifying and lexing by adding up what each step spends, with the invariant that no chunk is longer than the text |
| C102 | the grammar of C66 | first the optional `nai` after words, never there (C75), is left out of the grammar, which is shown to read the same (induction on the reading); then two certificates of simulation (`peg_rel`): C78's for brivla and a second one, between inputs whose words play the same part (indicators, erasure words, words without use), found by strong induction on the length of the input with the grammar's finitely many expressions checked by the kernel; composed, and the trees compared after both are dimmed |
| C103 | `Display` of the errors (`Model/Messages.lean`), on top of the lexer and the parser | from C40 and C52, which say which errors there are and what they mean; that the message determines the error from the injectivity of C97 (`Proof/ReadBack.lean`) |
| C104 | `repl` on bytes (`Model/Bytes.lean`), with Lean's UTF-8 for that of `std` | no byte of a character but the newline is 10, so lines of bytes are lines of text; then the loop of C96 by induction on the text before the first line that is no text |
| C45-C50, C52, C53 | CST grammar as data (`Model/CstRules.lean`, generated from the derive input by `tools/gen_cst.py`), nom combinators (`Model/CstPeg.lean`), `parse` and `TreeNode` (`Model/Cst.lean`) | certificate + meta-theorems; negations by evaluation |
| C51 | the lexer | refinement to `Spec/Lexing.lean`, determinism of that description |
| C54 | lexer and parser together | C35, C46, C48 combined |

Where the first formulation of a property turned out false of the code, its statement in `properties.jsonl`
says what does hold, exactly, and names the counterexample; the counterexample is a theorem beside the
others (`C02_overlaps_panics`, `C10_gismu_with_y`, `C12_space`, `C14_final_comma`, `C17_dead_entries`,
`C18_long_hesitation`, `C27_chunk_final_comma`, `C32_size_hint_wrong`, `C43_adjacent`,
`C48_experimental_quoted`, `C50_empty_quote`, `C55_no_polynomial`, `C58_not_every_word`, `C72_final_comma`, `C73_conditions`, `C74_conditions`, `C77_conditions`, `C87_conditions`).
