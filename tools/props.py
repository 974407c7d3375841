#!/usr/bin/env python3
"""Source of properties.jsonl (one tuple per property)."""
import json
P=[]
def p(title,statement,quantifier,why,anchors):
    P.append(dict(id="C%02d"%(len(P)+1),title=title,statement=statement,quantifier=quantifier,why_tests_cant=why,anchors=anchors))
SP="src/span.rs"; DE="src/decompose/mod.rs"; CL="src/lex/selmaho/classify.rs"; LX="src/lex/mod.rs"; RU="src/rules.rs"; CS="src/parse/cst"
inf="There are unboundedly many inputs; a test suite samples a few."
p("Span construction","Span::new(a,b) panics exactly when b<a; otherwise the span starts at a, ends at b, has len b-a, contains exactly the locations l with a<=l<b, and is empty exactly when a=b. Span::at(a,n) is the span a..a+n whenever a+n fits in u32.","all pairs of u32 locations, both build profiles",inf,[SP+":Span::new",SP+":Span::at",SP+":Span::len",SP+":Span::contains",SP+":Span::is_empty"])
p("overlaps_with is commutative and means a common location","Span::overlaps_with gives the same answer for both orders of its arguments, and for two non-empty spans answers true exactly when some location is contained in both; an empty span overlaps another span exactly when it lies strictly inside it. It panics exactly in builds with overflow checks, and there exactly when one of the two spans is the empty span at location 0 and the other starts at a later location; so the stronger claim that it never panics is false.","all pairs of spans with start<=end, both build profiles","The boundary cases are many, and the documented examples miss the empty span at location 0, which panics in debug builds.",[SP+":Span::overlaps_with"])
p("between is the gap","Span::between(x,y) is Some exactly when x ends strictly before y starts, and then it is exactly the gap: on any text, slice(x), slice(gap), slice(y) are contiguous. In builds with overflow checks it panics exactly on the pairs on which overlaps_with does (the empty span at location 0), so that an unconditional version is false there; in release builds it never does.","all pairs of spans with start<=end, every text and both build profiles","Same boundary cases as overlaps_with; the empty span at location 0 panics in debug builds.",[SP+":Span::between"])
p("slice_before, slice and slice_after partition the text","Whenever slice(text) is Some, slice_before and slice_after are Some too and the three pieces concatenate to the text; the slice has exactly len() bytes. slice is Some exactly when start<=end and both are character boundaries of the text.","all spans and all UTF-8 texts",inf,[SP+":Span::slice",SP+":Span::slice_before",SP+":Span::slice_after"])
p("Embedded slices round-trip through spans","For every sub-slice of an input shorter than 4 GiB, Span::from_embedded_slice(input.as_ptr(), sub) does not panic and slicing the input with it gives back the sub-slice; Span::entire_slice slices to the whole input.","all inputs below 2^32 bytes and all their sub-slices",inf,[SP+":Span::from_embedded_slice",SP+":Span::entire_slice"])
p("Every morphology rule terminates without panicking","Selmaho::classify and the decomposer call mutually recursive parsing functions with loops; for every text every one of these functions returns (no endless recursion or loop) and none of their slicing operations panics.","all 118 rule functions and all UTF-8 texts","Termination and absence of panics quantify over all texts; left recursion or an empty repeat body would only show on specific inputs.",[RU+":repeat",RU+":seq",RU+":one_of",RU+":cmavo_minimal",RU+":lujvo_minimal"])
p("A rule consumes a prefix","Whenever a morphology rule succeeds, the matched text followed by the remaining text is exactly the input (same bytes, same address), so that decomposition never skips or duplicates characters.","all rules and all texts",inf,[RU+":seq",RU+":repeat",RU+":one_of"])
p("classify is total","Selmaho::classify returns for every string - any length, any Unicode content, including the empty string and strings of commas - and never panics (the from_utf8(..).unwrap() of the byte-wise transformation is always fed valid UTF-8).","all UTF-8 strings","The unwrap depends on the interaction of byte filtering with multi-byte characters and the 16-byte buffer.",[CL+":Selmaho::classify",CL+":transform_for_direct_cmavo_check"])
p("gismu shape","If classify answers Gismu, the word without commas has exactly five letters of shape CVCCV or CCVCV (C a consonant letter, V a vowel letter or y); in the CCVCV case the first two letters are one of the 48 permissible initial pairs.","all strings",inf,[RU+":gismu",RU+":initial_pair",CL+":Selmaho::classify_generally"])
p("Where y may occur in a gismu","A word classified Gismu contains the letter y at most once, only as its first vowel (second letter of CVCCV, third of CCVCV); its final vowel is one of a e i o u. That a gismu contains no y, as the language definition has it, is false of the code: brydi is classified Gismu.","all strings","The code departs from the language definition (the vowel rule includes y); that the departure goes exactly this far is a statement about all strings.",[RU+":vowel",RU+":gismu"])
p("cmevla shape","If classify answers Cmevla, the last letter of the word is a consonant, and no character outside the Lojban alphabet, digits, apostrophe and comma occurs in it.","all strings",inf,[RU+":cmevla",CL+":Selmaho::classify_generally"])
p("Lojban words use the Lojban alphabet","If classify answers anything but AnyText, every character of the word is an ASCII letter of the Lojban alphabet (no q, w), a digit, an apostrophe, h or a comma, with a single exception: the table entry vi'ei'e that was entered with a leading space (and its respellings). For words as the decomposer yields them there is no exception.","all strings",inf,[CL+":Selmaho::classify",RU+":lojban_word"])
p("Permissible consonant pairs","If classify answers Gismu, Lujvo, Fuhivla, Cmevla or UnknownCmavo, then any two consonant letters adjacent in the word (commas ignored) form a permissible pair: not equal, not one voiced and one unvoiced (l m n r are neutral), not both from {c,j,s,z}, not cx kx xc xk mz; and the forbidden triples ndj ndz ntc nts do not occur.","all strings and all positions in them",inf,[RU+":consonant_rule",RU+":cmevla",RU+":fuhivla",RU+":lujvo_minimal"])
p("The influence of commas on classification","classify(word) equals classify(word without its commas), except when the word ends in a comma and its comma-free form is Gismu, Lujvo, Fuhivla, Cmevla or UnknownCmavo: then classify answers AnyText. In particular commas never matter for cmavo of the table, nor commas that are not final. (That commas never matter is false: djan is Cmevla, djan, is AnyText.)","all strings","Any number of commas at any place in any word.",[CL+":transform_for_direct_cmavo_check",RU+":one_of"])
p("h and apostrophe are interchangeable","Replacing any apostrophes by h or any h by apostrophes changes neither the classification of a word nor the decomposition of a text.","all strings and all subsets of the positions replaced",inf,[CL+":transform_for_direct_cmavo_check",RU+":h"])
p("The experimental flag","classify reports experimental=true whenever the selmaho is fundamentally experimental, and never for Gismu, Lujvo, Fuhivla, Cmevla or AnyText; UnknownCmavo is always experimental.","all strings",inf,[CL+":Selmaho::classify","src/lex/selmaho/mod.rs:Selmaho::is_fundamentally_experimental"])
p("The cmavo table is what classify recognises","For each word of at most 16 bytes of the built-in cmavo table, classify(word) is the selmaho and experimental flag of its entry, also with commas inserted anywhere and with h for apostrophe; conversely classify answers a selmaho other than the six word classes and Y only for respellings of table words, with that entry's flag. Exactly two table words are longer than 16 bytes and none of their respellings is ever recognised (UnknownCmavo; AnyText with a final comma); so that every table entry is recognised is false.","all 1361 entries of the table, all comma insertions and h substitutions, all strings","An infinite set of respellings; the 16-byte buffer silently drops long words.",[CL+":Selmaho::classify",CL+":CUHUHU_ETC"])
p("Hesitation words","classify answers Y exactly for 1 to 16 letters y (not experimental) and for the respellings of ie'o and ko'o'o'o'o (experimental), commas ignored. From 17 letters on, a word of letters y is UnknownCmavo and experimental; so that hesitations of every length are Y is false.","all strings, all lengths","The exact boundary (16-byte buffer) must be proved for every length, and that nothing else is Y for every string.",[CL+":Selmaho::classify"])
p("Selmaho names are unambiguous","Selmaho::as_repr (Display) gives different text for different selmaho.","all pairs of the 251 variants","Finite but 63001 pairs, each name written by hand.",["src/lex/selmaho/display.rs:as_repr"])
p("Decomposition terminates and never panics","For every text shorter than 4 GiB, iterating decompose(text) ends after finitely many words and no call panics, in debug and release builds.","all UTF-8 texts below 2^32 bytes",inf,[DE+":Decomposer::next",DE+":decompose_single"])
p("Decomposed spans are valid","Every span yielded by decompose(text) can be sliced out of the text (in bounds and on character boundaries) and is not empty; spans come in increasing order and never overlap.","all texts below 2^32 bytes and all words",inf,[DE+":Decomposer::next"])
p("Decomposition loses nothing","The words of decompose(text), with commas removed and concatenated, are exactly the text with commas and separators removed: no letter is dropped, duplicated or reordered.","all texts below 2^32 bytes",inf,[DE+":decompose_single",DE+":Decomposer::next"])
p("Words contain no separators","No word yielded by decompose contains a pause, whitespace, question or exclamation mark, and every word contains a character other than the comma.","all texts and words",inf,[DE+":split_or_trim_condition",DE+":Decomposer::next"])
p("Decomposition is local to pauses","decompose(a + sep + b) yields the words of a followed by the words of b shifted by the length of a plus the separator, for every separator character.","all pairs of texts and all 7 separators",inf,[DE+":Decomposer::next",DE+":split_or_trim_condition"])
p("Separators are interchangeable and may be repeated","Replacing a separator by another separator leaves the yielded spans unchanged, and extra separators at the start, at the end or next to another separator change nothing but the positions of the words.","all texts, positions and separators",inf,[DE+":split_or_trim_condition",DE+":Decomposer::next"])
p("Consonant-final chunks are one word","A chunk between separators whose last letter (commas ignored) is a consonant is yielded whole as one word; conversely no such chunk is ever split.","all texts",inf,[DE+":simple_cmevla_check",DE+":decompose_single"])
p("The influence of commas on word boundaries","Adding or removing commas anywhere except at the end of a chunk does not change the words decompose yields (compared without commas); in particular removing all commas from a text none of whose chunks ends in a comma. At the end of a chunk a comma can change them: minabroda, gives mi nabroda while minabroda gives mi na broda.","all texts below 2^32 bytes and all comma insertions and removals","Any number of commas at any place.",[DE+":decompose_single",RU+":one_of"])
p("Consonant case does not matter","Changing the case of consonants (and y) in a text does not change the word boundaries found by decompose.","all texts and all subsets of consonant positions",inf,[RU+":consonant_rule",DE+":is_consonant"])
p("Undecomposed iteration is plain splitting","Calling only next_no_decomposition yields exactly the pieces of text.split(split_or_trim_condition), including empty ones, in order, and then None for ever.","all texts below 2^32 bytes",inf,[DE+":Decomposer::next_no_decomposition"])
p("Mixed iteration is safe","However next and next_no_decomposition are interleaved, no call panics, every span is a valid slice of the text starting at or after the end of the previous one, and once both answer None they answer None for ever.","all texts below 2^32 bytes and all finite sequences of the two calls","All interleavings of two methods.",[DE+":Decomposer::next",DE+":Decomposer::next_no_decomposition"])
p("Resuming after an undecomposed step","If next_no_decomposition is called when part of a chunk has been decomposed, it yields the rest of that chunk from the next word up to the next separator or the end of the text, and iteration resumes at the following chunk; nothing of the chunk is yielded twice.","all texts, all points of the iteration",inf,[DE+":Decomposer::next_no_decomposition"])
p("size_hint is a lower bound up to one","While only next has been called, the lower bound of Decomposer::size_hint never exceeds the number of words still to come from next; when next_no_decomposition was called as well it exceeds it by at most one, and it can exceed it by one (the text mina with a final space), so that the Iterator contract is broken there.","all texts and all reachable states of the iterator","All interleavings of two methods on all texts; the violation shows only after next_no_decomposition has peeked at an empty or all-comma chunk.",[DE+":Decomposer::size_hint"])
p("Lexing terminates and never panics","For every text shorter than 4 GiB, iterating lex(text) ends after finitely many items, and no call panics (every unwrap in the lexer is on Some).","all UTF-8 texts below 2^32 bytes",inf,[LX+":Lexer::next"])
p("An error is the last item and the lexer is fused","lex yields at most one error, nothing after it, and after the first None or after an error only None.","all texts and any number of further calls",inf,[LX+":Lexer::next",LX+":Error"])
p("Token spans are valid and ordered","Every token span slices out of the text, and tokens come in order without overlapping.","all texts below 2^32 bytes",inf,[LX+":Lexer::next"])
p("fa'o ends the text","After a token of selmaho FAhO or FAhOhO that is not inside a quote, lexing stops: nothing after it is yielded.","all texts",inf,[LX+":Lexer::next_normal"])
p("Delimited quotes have the documented token shape","A ZOI or MUhOI word is followed by ZoiDelimiter, optionally AnyText, ZoiDelimiter; a SOhEhAI word by ZoiDelimiter, optional AnyText, ZoiDelimiter, optional AnyText, ZoiDelimiter; otherwise by an error. These selmaho never occur elsewhere: ZoiDelimiter tokens occur only there.","all texts",inf,[LX+":Lexer::next_delimited_quote"])
p("Quotes close at the first matching delimiter","The ending delimiter equals the starting one up to commas, and no undecomposed piece between them does; the AnyText token covers the quoted text verbatim from the first to the last quoted piece, without decomposition.","all texts and all quotes in them",inf,[LX+":Lexer::next_delimited_quote"])
p("Pause-delimited quotes","After a MEhOI, ZOhOI or DOhOI token comes exactly the text up to the next separator as one AnyText token (not decomposed), or the end-of-input error if the text has ended.","all texts",inf,[LX+":Lexer::next_pause_delimited_quote"])
p("Lexing errors mean what they say","An unclosed-quote error is yielded exactly when the pieces after the starting delimiter up to the end of the text contain no matching delimiter; a missing-separator error exactly when no word follows the initiator; an end-of-input error exactly when nothing follows a pause-quote initiator.","all texts",inf,[LX+":Error"])
p("Ordinary tokens are classified words","Every token other than quote delimiters and quoted text is a word of the decomposition with selmaho and experimental flag equal to classify of its text; on a text whose words include no quote initiator and no FAhO, the tokens are exactly the classified words of decompose.","all texts",inf,[LX+":Lexer::next_normal"])
p("Lexing is local","If the tokens of a end outside any quote and without fa'o, lex(a + sep + b) is lex(a) followed by lex(b) shifted.","all pairs of texts and all separators",inf,[LX+":Lexer::next"])
p("Quoted content is opaque","Replacing the text of a delimited quote that stands between separators by another text none of whose pieces matches the delimiter changes only that token (and shifts what follows). When the quoted text adjoins the opening delimiter without a separator this is false (zoi fuvi text fu against zoi fu'a fu), since the text then takes part in finding the delimiter.","all texts, quotes between separators and replacement contents",inf,[LX+":Lexer::next_delimited_quote"])
p("Rule tracing is balanced","The nesting level used for trace logging returns to its previous value after every rule call, so the checked_sub(1).unwrap() never panics, whatever the text.","all rules and texts",inf,[RU+":debug_rule_start",RU+":debug_rule_end","macros/src/lib.rs:debug_rule"])
p("Parsing terminates and never panics","parse of any token sequence returns a tree or an error: no endless recursion, no endless repetition, no panic.","all finite token sequences","The grammar has some 200 mutually recursive productions; left recursion or empty repetition would show only on specific inputs.",[CS+"/mod.rs:parse",CS+"/rules/mod.rs"])
p("The tree contains the tokens","The leaves of a successful parse, read left to right, are exactly the input tokens: none lost, duplicated or reordered.","all token sequences that parse",inf,[CS+"/mod.rs:parse","src/parse/tree_node.rs"])
p("Parsing depends only on the selmaho","Two token sequences with the same selmaho give both a success or both a failure, and trees of the same shape; spans and experimental flags have no influence.","all pairs of token sequences with equal selmaho",inf,[CS+"/parse_trait.rs",CS+"/rules/selmaho.rs"])
p("Node locations and the experimental flag","For every node of a parse tree, start and end location are both present or both absent; they are the start of its first token and the end of its last token; a node contains experimental words exactly when one of the tokens in it that are not delimiters or text of a delimited quote is experimental. (Counting those too would be false: in zoi gy gy xe'o the text token is an experimental word.)","all nodes of all parse trees",inf,["src/parse/tree_node.rs:TreeNode"])
p("Parse errors point into the input","The location of a parse error is a suffix of the token sequence, so that reporting it never indexes out of bounds.","all token sequences that do not parse",inf,[CS+"/error.rs"])
p("Delimited quotes in the grammar","zoi with delimiter, text and delimiter parses as a sumti, and in every successful parse of a text without zo, lo'u, zei and bu a zoi is followed by exactly three tokens that it quotes, delimiters or not. The lexer yields two tokens for an empty quote; so an empty quote ending a text never parses (zoi gy gy), and elsewhere it swallows the next word.","all token sequences, all texts","The lexer and the grammar disagree about the number of tokens; what follows from it for all texts is a statement about all of them.",[CS+"/rules/mod.rs:ZoiSumti",LX+":Lexer::next_delimited_quote"])
p("The items are exactly those the reading rules describe","The list of items lex(text) yields is a reading of the text in the sense of a short declarative description (words, delimited quotes, pause quotes, fa'o, the three errors), and it is the only such reading: the description determines the output.","all texts below 2^32 bytes",inf,[LX+":Lexer::next",LX+":Lexer::next_delimited_quote",LX+":Lexer::next_pause_delimited_quote"])
p("Which parse errors exist","A failed parse reports one of: Eof at the first of some left-over tokens; after a token lo'u, Eof at the very end (no le'u); after a token tei, that fo'i was expected (or that it is followed by bu or zei); after a token ga'o, the same about the second ga'o. No other error is ever reported, so a report never blames a place for other reasons.","all token sequences that do not parse",inf,[CS+"/error.rs",CS+"/mod.rs:parse",CS+"/rules/mod.rs"])
p("Trees conform to the type definitions","Every node of the tree of a successful parse has the fields of its struct or enum variant in order, each word in it has the selmaho its field names, and the extra conditions attached to the types (lookaheads, not-empty conditions) hold.","all token sequences that parse and all nodes",inf,[CS+"/rules/mod.rs","macros/src/derive_parse.rs"])
p("Node ranges slice the text, nest, and siblings are ordered","For a text that lexes and parses, start_location..end_location of any node with tokens is a range of the text that slices without panic, it lies inside the range of every node containing it, and a sibling visited earlier ends before a later one starts.","all texts below 2^32 bytes that lex and parse, all nodes",inf,["src/parse/tree_node.rs:TreeNode",LX+":Lexer::next",CS+"/mod.rs:parse"])
p("The work is exponential in the length of the text","On n letters y, decomposing, lexing and (from 17 letters on) classifying call rule functions at least 2^(n/2)/2 times. No polynomial in the length of a word bounds the number of calls made by classify.","all lengths, all polynomials","A measurement shows single lengths; that no polynomial bound exists quantifies over all lengths.",[RU+":nucleus",RU+":vowel","macros/src/lib.rs:debug_rule"])
EX="examples/main.rs"
p("The command line program handles every text","Whatever the switches, handling one text never panics (the span and slice unwraps of the printing code included), and prints in order: the words with their texts if asked for; then either the lexing error and nothing else, or the tokens with their texts if asked for and the tree, the could-not-be-lexed message, or the parse error, if asked for.","all texts below 2^32 bytes and all combinations of switches",inf,[EX+":main",EX+":print_tree_node",EX+":WithInput"])
p("The printed tree shows the whole parse","The lines printed for a text that parses correspond one to one and in order to the nodes of the tree, indented by depth; the lines of tokens are the tokens of the text from left to right; with collapsing, exactly the nodes with exactly one child are left out; the range and text on each line are those of the node.","all texts below 2^32 bytes that lex and parse, all trees",inf,[EX+":print_tree_node","src/parse/tree_node.rs:TreeNode"])
p("Which unclassifiable words the program names","If the words of a text before an unclassifiable word form a text by themselves, and neither a quoting word (zo, zoi, lo'u, zei, bu) comes before it nor bu or zei after it, the program says that this word, quoting its text, could not be lexed. If they do not form a text (and contain no unclassifiable word, tei or ga'o), the program prints a parse error located before the word instead. So that every unclassifiable word is named is false: lo zzz.","all texts below 2^32 bytes with such a word","Where the parser gives up depends on everything before the word; the statement ranges over all texts.",[EX+":main",CS+"/error.rs"])
p("Words without a place in the grammar are only ever quoted","In the tree of a text, words of experimental selmaho, unknown cmavo, unclassifiable words and si, sa, su occur only inside zo, zoi and lo'u quotes, after zei, or before bu or zei; a text with such a word and without zo, zoi, lo'u, zei and bu does not parse.","all token sequences",inf,[CS+"/rules/mod.rs",CS+"/rules/selmaho.rs"])
p("Exactly the gismu are recognised as gismu","classify answers Gismu (never experimental) if and only if the word does not end in a comma and its letters, commas aside, are exactly five: CVCCV with a permissible consonant pair, or CCVCV beginning with one of the 48 initial pairs, where the first vowel may be y and every letter but the last may be a capital, and the last is a, e, i, o or u.","all strings","The rules decide through lookaheads over syllables, stress and onsets; that every such five-letter word gets through and no other does is a statement about all strings.",[RU+":gismu",RU+":cmevla",RU+":cmavo_minimal",CL+":Selmaho::classify_generally"])
p("Cmavo and gismu written together are taken apart correctly","If every chunk of a text (between separators) is a row of ordinary cmavo - consonant and vowels or diphthongs joined by apostrophes, the first one possibly without consonant or beginning with i or u - optionally followed by a gismu, or ends in a consonant, then the words decompose yields are exactly these cmavo, gismu and names.","all texts below 2^32 bytes made of such chunks, any number and length of words","The rules look ahead over whole following words; that no boundary is ever misplaced is a statement about all combinations.",[DE+":decompose_single",RU+":cmavo_form",RU+":cvcy_lujvo",RU+":explicitly_stressed_brivla_minimal"])
p("Brivla have at least two vowels","A word classified Gismu, Lujvo or Fuhivla contains at least two vowel letters.","all strings",inf,[RU+":gismu",RU+":fuhivla",RU+":lujvo_minimal",CL+":Selmaho::classify_generally"])
p("Parsing stops exactly at a word without use","If a token sequence parses and contains no quoting word (zo, zoi, lo'u, zei, bu), then followed by a word the grammar has no use for (unclassifiable, unknown or of an unused selmaho, not followed by bu or zei) and by anything else, it fails with the end-of-input error located exactly at that word; if it does not parse (and contains no tei or ga'o), it fails where it failed without the addition.","all token sequences, words without use and continuations",inf,[CS+"/mod.rs:parse",CS+"/rules/mod.rs",CS+"/error.rs"])
p("A final fa'o changes nothing else","If a token sequence without quoting words, to, lu and fa'o parses, then so it does with fa'o added, giving the same tree but for the fa'o in the last place of the text; conversely, if it contains no ba'e either and parses with fa'o added, it parses without. (With ba'e the converse is false: ba'e fa'o parses, ba'e does not.)","all token sequences",inf,[CS+"/rules/mod.rs:Text",CS+"/mod.rs:parse"])
p("Which nodes can be empty","In the tree of a text, only nodes of eleven kinds can contain no token: Text, Frees, Paragraphs, Paragraph, ParagraphItem::Empty, Sentences3::Single, Sentence, Args, TailArgs, GadriSumtiPre::Simple and VocativeValue::Sumti (each of which does occur without tokens); every other node has a start and an end location. In particular the sentences of a paragraph item are never empty.","all token sequences that parse and all nodes of their trees",inf,[CS+"/rules/mod.rs","macros/src/derive_parse.rs:wrap_must_consume"])
p("Parsing is the reading of the grammar","A token sequence parses with a given tree if and only if the type definitions, read as rules of inference (fields in order, the first variant that applies, as many elements of a slice as there are, no other alternative after cut, negative lookahead, conditions), yield this tree for the production Text and leave no token; for every token sequence these rules have exactly one outcome.","all token sequences and trees",inf,[CS+"/mod.rs:parse",CS+"/rules/mod.rs","macros/src/derive_parse.rs"])
p("Which node types occur","The variants GadriSumtiPre::Relative and GadriSumtiPre::FullPre occur in no tree, since the variant before them always applies; every other struct and variant of the type definitions occurs in the tree of some text.","all trees of all token sequences, all node types","That a variant never occurs is a statement about all texts.",[CS+"/rules/mod.rs:GadriSumtiPre",CS+"/rules/mod.rs"])
p("A constituent is determined by the text from its start on","If two parsed token sequences agree from the start of a node in the one and of a node of the same kind in the other to the end, the two nodes are identical, whatever precedes them (kinds: structs and variants of non-generic types).","all pairs of token sequences that parse and all pairs of nodes",inf,[CS+"/mod.rs:parse",CS+"/rules/mod.rs"])
p("Quotes take exactly the words they should","A token sequence that parses and has no bu or zei is a row of usable words and quotes: zo with one token, zoi with three, lo'u with all tokens up to the first le'u after it. zo quotes any word but bu and zei, zoi any three tokens, lo'u .. le'u any tokens without le'u (if the first is not bu or zei and the last not ba'e). A text starting with lo'u and without le'u never parses, and the error is located at the very end (if there is no tei or ga'o).","all token sequences, all quoted words",inf,[CS+"/rules/mod.rs:ZoSumti",CS+"/rules/mod.rs:ZoiSumti",CS+"/rules/mod.rs:LohuSumti"])
p("Which words make letters with bu","In no parse does bu (or zei) attach to one of bu, zei, si, su, sa and fa'o as the first word; any other single word, also a quoting or unclassifiable one, followed by one or more bu is a text, in which the word and all the bu make one letter.","all token sequences that parse, all words",inf,[CS+"/rules/mod.rs:BuInner",CS+"/rules/mod.rs:Lerfu"])
p("Exactly the words of cmavo form are cmavo","A word without a space and not ending in a comma is classified as some kind of cmavo if and only if, commas aside, it is a digit, a row of y, or vowels and diphthongs (ai ei oi au) joined by apostrophes or h, with at most one consonant, i or u before them; capitals allowed. It is UnknownCmavo if and only if it has this form, does not end in a comma, and is neither in the table (entries up to 16 bytes) nor one to sixteen y. In particular a cmavo with a capital letter in it is never recognised.","all strings","The table has a thousand entries, and the rules decide the rest through lookaheads; both directions are statements about all strings.",[CL+":Selmaho::classify",RU+":cmavo_form",RU+":cmavo_minimal"])
p("Words stand on their own","Each word of a text (without the capital vowels A E I O U, no comma at the end or before a separator), decomposed by itself, is exactly one word: decomposition never stops short. Before a final comma this is false: miklama, is one word, miklama two.","all texts below 2^32 bytes of this kind and all their words","The lookaheads see what follows a word; that its absence never changes the verdict is a statement about all texts.",[DE+":decompose_single",RU+":cmavo_minimal",RU+":explicitly_stressed_brivla_minimal"])
p("Paragraphs are independent","If A contains no word that quotes, binds or brackets (zo, zoi, lo'u, zei, bu, to, lu, tu'e), no fa'o and no ni'o and does not end with ba'e, and B does not begin with bu or zei, then A ni'o B is a text if and only if A and B are texts. So a sequence cut at its ni'os is a text exactly if every piece is. The conditions are needed: ba'e ni'o, zo ni'o, lu ni'o li'u, tu'e ni'o tu'u, fa'o ni'o and ni'o bu are no such compositions.","all token sequences A and B, all lists of pieces","The parser is ordered choice with unbounded lookahead; that what follows ni'o never influences how the text before it parses is a statement about all pairs of texts.",[CS+"/rules/mod.rs:Text",CS+"/rules/mod.rs:Paragraphs",CS+"/rules/mod.rs:ParagraphSeparator"])
p("Sentences are independent","If A contains no word that quotes, binds or brackets, no fa'o, ni'o and .i and does not end with ba'e, and B begins, after any indicators, with a word that has nothing to do with an .i before it (no connective, tag word, number, bo, free modifier, ba'e, .i or ni'o, not followed by bu or zei), then A .i B is a text if and only if A and B are texts. So a sequence of such sentences joined by .i is a text exactly if every one is. The conditions are needed: .i je, .i bo, .i pu bo, .i bu and .i .i je are no such compositions.","all token sequences A and B, all lists of sentences","The parser is ordered choice with unbounded lookahead, and tries .i in three roles; that the text after .i never influences how the text before it parses is a statement about all pairs of texts.",[CS+"/rules/mod.rs:Paragraph",CS+"/rules/mod.rs:SentenceSeparator",CS+"/rules/mod.rs:ConnectedSentenceSeparator",CS+"/rules/mod.rs:CloseSentenceSeparator"])
p("A nai is always an indicator","In the tree of a text every nai (other than one quoted or before bu or zei) is an indicator: the optional nai of the type definitions - after connectives, tenses, modals, vocatives, abstractors, gi - is absent in every tree, because the word before has already taken it. Every other optional or repeated field of a struct or variant (words apart) is filled in the tree of some text.","all token sequences that parse and all parts of their trees; all optional and repeated fields","That a field is never filled is a statement about all texts.",[CS+"/rules/connectives.rs",CS+"/rules/mod.rs",CS+"/rules/selmaho.rs"])
p("Indicators nest","An Indicators node of a tree contains exactly one indicator, and a letter made with bu has at most one Indicators node: further indicators belong to the word of the indicator before them.","all token sequences that parse and all such nodes",inf,[CS+"/rules/mod.rs:Indicators",CS+"/rules/mod.rs:Lerfu",CS+"/rules/selmaho.rs"])
p("Emphasis and indicators do not matter for the structure","Token sequences without bu, zei, zo, zoi, lo'u, lu and fu'e that do not end in ba'e are texts if and only if they are texts with every ba'e and every indicator (ui, cai, nai, da'o, fu'o, y) removed; the two trees are then identical except for the removed words, which hang on the words they are about (or begin the text). So ba'e and indicators can be added to or removed from a text anywhere.","all token sequences with the stated exceptions (each shown necessary)",inf,[CS+"/rules/mod.rs:Text",CS+"/rules/mod.rs:Indicators",CS+"/rules/selmaho.rs"])
p("Brivla are interchangeable","Whether a token sequence is a text depends only on the kinds of its words, gismu, lujvo and fu'ivla counting as one kind; if two sequences agree in this, their trees are the same except that the node of a brivla is named after its kind (and for the tokens themselves). So a brivla can be replaced by one of another kind anywhere, also in quotes and before bu and zei.","all pairs of token sequences that agree in the kinds of words",inf,[CS+"/rules/mod.rs:TanruUnit2",CS+"/rules/selmaho.rs"])
p("The grammar is what the declarations say","Every production the parser uses is exactly what derive(Parse) makes of the text of the type declaration in src/parse/cst/rules: fields in order, variants in order, the attributes with, not, not_after, cut, must_consume and postcond on the right element, generic types and aliases expanded; no declaration is left out or shadowed by another of the same name; the selmaho types are declared as token_types! lists them; and the nodes of the tree carry the declared names and visibility.","all type declarations of the grammar","The generated code is never looked at by a test: a test sees a few parses, not the correspondence of all declarations and productions.",[CS+"/rules/mod.rs",CS+"/rules/selmaho.rs","macros/src/derive_parse.rs:implement_parse","macros/src/derive_tree_node.rs:derive"])
p("A declaration is read as it is written","For every declaration derive(Parse) accepts (whatever its types and attributes, constructor names being those of the grammar), the generated parser reads a struct by reading its fields in order and an enum by its first variant that applies; not and not_after look ahead without consuming, cut turns errors into failures, many0 and many1 repeat as long as possible, must_consume and postcond reject; Option, tuples, type aliases, type parameters, Self and generic types are read likewise; each production of the grammar is read as its declaration says.","all declarations in the language of the macro, all token sequences; all productions","Tests see the expansion of single declarations on single inputs; the statement ranges over all declarations and all inputs.",["macros/src/derive_parse.rs:implement_parse",CS+"/rules/mod.rs",CS+"/rules/helpers.rs"])
p("The word rules are what the source says","The rule functions declared in the text of src/rules.rs - written out or made by its macros consonant_rule!, vowel_rule! and group! - are, besides the combinator null, exactly the rules the other properties speak about, in this order, each with this body, this list of characters and this debug_rule attribute; none is left out or declared twice, and no other bodies agree with the text.","all rule functions of the file","A test runs some of the functions on some inputs; that each of the 118 functions is the one the statements are about is a statement about all of them.",[RU,RU+":consonant_rule!",RU+":group!"])
p("The tables of cmavo and selmaho are what the source says","For every word the direct lookup of classify answers what the first applicable arm in the text of src/lex/selmaho/classify.rs says (the selmaho, and whether it is marked experimental); for other words the rules named in the text are tried in the order of the text; the variants of Selmaho, the experimental ones and their printed names are those of the text, each exactly once.","all words, all selmaho, all arms","The table has a thousand entries in three hundred arms, and a word may be in several: that the first one decides for every word, and none is left out, is not visible in any number of examples.",[CL+":Selmaho::classify",CL+":Selmaho::classify_generally","src/lex/selmaho/mod.rs:Selmaho","src/lex/selmaho/display.rs:as_repr"])
p("Exactly the names are recognised as names","classify answers Cmevla (never experimental) if and only if the word does not end in a comma and, commas aside, is a sequence of vowels or diphthongs (ai ei oi au, y included), glides (i u), apostrophes (or h), consonants and digits such that vowels do not meet, a glide and an apostrophe are followed by a vowel, consonants in a row make permissible pairs and none of ndj ndz ntc nts, no glide and no apostrophe comes after a consonant, no vowel and no apostrophe after a digit, it does not begin with an apostrophe, and it ends in a consonant; capitals allowed. A word has one such division at most, and no such word has the form of a cmavo.","all strings","The rule repeats alternatives with lookaheads that call each other; that exactly these words get through is a statement about all strings.",[RU+":cmevla",RU+":nucleus",RU+":consonant",CL+":Selmaho::classify_generally"])
p("Words built from rafsi are lujvo","A word that does not end in a comma, has no capital vowel, and is, commas aside, built from two or more rafsi - CVC, CCV with an initial pair, CVV and CV'V with the hyphen r (or n before r), CVCy, CVCCy, CCVCy; at the end CVV, CCV, CV'V, CVCCV or CCVCV; CVV or CV'V without a hyphen only before a last rafsi CVV or CCV - with permissible consonants only (pairs, and none of ndj ndz ntc nts), is classified Lujvo, never Fuhivla, and not marked experimental.","all strings of that form, any number of rafsi","The rules decide with lookaheads that run over the whole rest of the word (a fu'ivla is tried at every rafsi, and stress is counted from the end); that no combination of rafsi gets lost is a statement about words of any length.",[RU+":lujvo_minimal",RU+":initial_rafsi",RU+":brivla_core",RU+":fuhivla",RU+":rafsi_string",CL+":Selmaho::classify_generally"])
p("Without y, only words built from rafsi are lujvo","A word without y that is classified Lujvo does not end in a comma and is, commas aside, built from rafsi in the way of the property before (in capitals or not); so for words without y and without capital vowels this is exactly the form of lujvo. In such a word a diphthong, or an apostrophe and a vowel, is followed by the hyphen r or n unless only the last rafsi comes after it: lojbauselgri and jbobauvlagri, which need no hyphen in Lojban, are not recognised as lujvo.","all strings without y","That no other word gets through is a statement about all strings; the missing words are found by the proof, not by a test.",[RU+":lujvo_minimal",RU+":cvv_rafsi",RU+":r_hyphen",RU+":y_less_rafsi",CL+":Selmaho::classify_generally"])
p("Lujvo written after cmavo stay whole","If every chunk of a text is a row of ordinary cmavo, possibly followed by a gismu or by a lujvo (in the form of C84, without capital vowels) that holds together, or is a name, then the words of the text are exactly these cmavo, gismu, lujvo and names. A lujvo holds together if it begins with two consonants, or with CVCy, or if the two consonants after its first consonant and vowels cannot begin a word, or only one syllable comes after them. The others do not: tosmabru and mabrybau are each classified Lujvo, but decompose into to smabru and ma brybau.","all texts of this kind below 2^32 bytes, any number of chunks, cmavo and rafsi","How much falls off the front of a chunk is decided by lookaheads over all the rest of it; a test sees some chunks.",[DE+":decompose_single",DE+":post_word",RU+":cmavo_minimal",RU+":lujvo_minimal",RU+":cvcy_lujvo"])
p("Closing words at the end can be left out","If a token sequence that ends with a closing word (kei, ku'o, ge'u, vau, tu'u, nu'u, be'o, me'u, ra'o, fe'u, ve'o, boi, lo'o, li'u, lu'u, se'u, toi, do'u, te'u, ku'e as selma'o) is a text and what is before that word does not quote (zo, zoi, lo'u, zei) and does not end with ba'e, then what is before it is a text too; its tree is the same except that one optional part, which consisted of that word only, is missing. The same holds of ku unless the word before it is na, and of ke'e if there are no operators (vu'u, na'u, ma'o); of any number of such words at once; and before a new sentence or paragraph instead of the end. The exceptions are real: mi klama na ku is a text and mi klama na is not.","all token sequences, of any length and nesting","The word may close a construct at any depth, and without it every enclosing production must still go the same way; a test tries some sentences.",["src/parse/cst/rules/mod.rs:Sentence","src/parse/cst/rules/mod.rs:TailArgs","src/parse/cst/rules/selmaho.rs:token_types!","src/parse/cst/mod.rs:parse"])
p("The work of the parser is exponential, its nesting linear","The parser calls Parse::parse of the grammar types (not counting the generic ones, Option, tuples, slices, Separated and WithFree, of which there are boundedly many in between) recursively, nested at most 32 deep per token (and the end of the text): the stack it needs is at most linear in the number of tokens, and cannot be bounded by less. The number of these calls is not bounded by any polynomial in the number of tokens: on a text that begins with n words ba'e (such as ba'e ... ba'e klama, which is a text for every n) it is at least 2^n, because after each ba'e the parser looks for a zei, which may itself have any number of ba'e before it.","all token sequences; all numbers of ba'e, all polynomials","The growth of work and stack is a statement about all lengths; the exponential case can only be run for small n.",["src/parse/cst/rules/selmaho.rs:token_types!","src/parse/cst/parse_trait.rs:Parse","src/parse/cst/mod.rs:parse"])
p("Texts as written can be put together and taken apart","For strings a, b and separators: if a is read without errors and without fa'o, then a, a separator and b are read without errors exactly if b is, and as the words of a followed by those of b. Hence, a and b together being below 4 GiB: whether the whole lexes and parses does not depend on which separator stands between them; with .i (or ni'o) written between them it lexes and parses if and only if a and b do (under the conditions of C74 and C73 on their words); a word read as a brivla may be replaced by any other word so read; an indicator or ba'e may be written or left out (conditions of C77); closing words at the end may be left out (C87). ba'e .. ba'e klama with n words ba'e lexes and parses, with at least 2^n parser calls.","all pairs of strings below 2^32 bytes under these conditions, all separators, all n","All the strings are arbitrary; that what is read in one part never depends on the other quantifies over all texts around it.",[LX+":Lexer::next",CS+"/mod.rs:parse",DE])
p("Exactly the fu'ivla are recognised as fu'ivla","A word without y and without capital vowels is classified Fuhivla (never experimental) if and only if it does not end in a comma and, commas aside: its sounds go together (vowels or diphthongs, glides, consonants and apostrophes as in C83, no digits; permissible consonant pairs, none of ndj ndz ntc nts); it does not begin with an apostrophe, has at least two vowels or diphthongs and ends in one; its consonants belong to syllables (at the start they begin a word; between vowels one of them may close a syllable, then come consonantal syllables, then consonants that begin a word); it is not made of rafsi, not even without its first consonant (slinku'i); and it does not fall apart into cmavo and a content word.","all strings without y and capital vowels","The rule tries cmavo, lujvo and fu'ivla at the start of the rest of the word, and calls itself through them; that exactly these words get through is a statement about all strings.",[RU+":fuhivla",RU+":fuhivla_head",RU+":brivla_head",RU+":slinkuhi",RU+":rafsi_string",RU+":consonantal_syllable",CL+":Selmaho::classify_generally"])
p("Fu'ivla begin with two consonants, or one cmavo and then two consonants","A word without y and capital vowels that is classified Fuhivla begins, commas aside, with two consonants, or with something of the form of one cmavo and then two consonants.","all strings without y and capital vowels that are classified Fuhivla","A statement about all words.",[RU+":fuhivla",RU+":brivla_head",RU+":cmavo",CL+":Selmaho::classify_generally"])
p("The class of every word without y","For a word without y, capital vowels and spaces that does not end in a comma: commas aside, it has at most one of the five forms of words (cmavo, name, gismu, lujvo, fu'ivla, each described letter by letter or sound by sound, the last one by recursion to shorter words), and it is unclassifiable (AnyText) if and only if it has none of them; it is Fuhivla if and only if it has the form of a fu'ivla (the other classes are in C60, C71, C83, C85).","all strings without y, capital vowels and spaces","The classes are decided by trying rules in an order; that the forms exclude each other and nothing else gets through is a statement about all strings.",[RU,CL+":Selmaho::classify",CL+":Selmaho::classify_generally"])
p("How any chunk is divided into words","If every chunk of a text is empty, ends in a consonant, or has sounds that go together (C83) and end in a vowel, without y and capital vowels and commas, then the words of the text are: of a chunk ending in a consonant the chunk itself; of the others the particles (cmavo forms, as long as possible) at its front, and then, if two consonants follow, the rest: by itself if it has the form of a gismu, lujvo or fu'ivla, else together with the particle before it. Every such chunk has exactly one such division. In particular a fu'ivla after any cmavo stays whole, if the sounds go together.","all texts of such chunks below 2^32 bytes, any number and length of chunks and words","How much falls off the front of a chunk is decided by lookaheads over all the rest of it; the statement covers every chunk whose sounds go together, not a list of shapes.",[DE+":decompose_single",DE+":post_word",RU+":cmavo_minimal",RU+":fuhivla",RU+":lujvo_minimal",RU+":gismu"])
p("No y in fu'ivla, no digits in brivla","A word classified Fuhivla contains no y (small or capital), and a word classified Gismu, Lujvo or Fuhivla no digit. So the form of fu'ivla in C92 is that of all fu'ivla without capital vowels.","all strings","That no path through the rules takes such a letter is a statement about all strings.",[RU+":fuhivla",RU+":syllable",RU+":nucleus",RU+":lujvo_minimal",CL+":Selmaho::classify_generally"])
p("Words that can be repeated","In a token sequence without zo, zoi, lo'u, zei and bu, another word of the same kind can be put before or after a brivla (of whichever kind), a name, a digit, a letter, go'i, jai, coi, zo'u or ni'o, and such words can be left out as long as one remains, any number of them anywhere in the sequence: it is a text before exactly if it is one after. So brivla can be combined to tanru of any length wherever one of them can stand. Other words cannot be repeated (lo, ku, cu, vau, moi, lau, je), nor can a word that is quoted or before bu.","all token sequences without quoting words, all places in them, all numbers of repetitions","The word may stand at any depth in any construct, and what follows it is read by another production than before; a test tries some sentences.",[CS+"/rules/mod.rs:Selbri3",CS+"/rules/mod.rs:NumberRest",CS+"/rules/mod.rs:BeforeTanruUnit",CS+"/rules/mod.rs:LaSumti",CS+"/mod.rs:parse"])
p("The program as a whole: input, output, sessions","Whatever is given on standard input (texts below 4 GiB), the program ends without panic. Without any of the switches --decompose, --lex, --cst it prints only a message on standard error. From a pipe it prints what C56 says of the text without the white space around it (any Unicode white space, which makes no difference); at a terminal each line is handled like a text of its own, in order, with a prompt before each and at the end, nothing carried over from one line to the next. The output depends neither on the build profile nor on where things are in memory.","all inputs whose texts are below 2^32 bytes, all combinations of switches, all formatting surroundings","Whatever is typed, for as long as one likes; and that addresses (on which the location of parse errors is computed) never show is a statement about all runs.",[EX+":main",EX+":repl",EX+":WithInput",EX+":print_tree_node","src/span.rs:Span","src/parse/cst/error.rs:WithLocation::or"])
p("What the program prints can be read back","If the program prints the same for two texts, whatever characters they contain, then (as far as asked for) they have the same words in the same places, the same lexing error, the same tokens with the same classes, stars, ranges and texts, trees that look alike (names, stars, ranges, texts, nesting; when collapsed, up to nodes with exactly one child), or the same parse error with the same tokens left. Only newlines and printable characters are printed, no control character, whatever the text contains.","all pairs of texts below 2^32 bytes, all combinations of switches","A text may contain quotation marks, newlines, brackets and anything that looks like output; that none of it can be confused with the rest is a statement about all pairs of texts.",[EX+":main",EX+":print_tree_node",EX+":WithInput","src/lex/token.rs:Token","src/lex/mod.rs:Error","src/parse/cst/error.rs:Error"])
p("Closed pieces of a text can be exchanged","In a token sequence without zo, zoi, lo'u, zei and bu, a piece closed by a word at its end can be exchanged for another of the same kind, except after ba'e: the sequence is a text before exactly if it is one after, and the tree is the same but for the node of the piece; indicators and free modifiers after the piece stay where they are. The kinds are: pronouns (KOhA), lu ... li'u with any text, li ... lo'o with any expression, lo ... ku with any description (without numbers, la, lu, to, sei, nu, relative clauses, bound arguments, vei and other descriptions in it); to ... toi with any text and soi ... se'u; noi ... ku'o and pe ... ge'u; be ... bei ... be'o. Otherwise only the opening word itself (for soi also sei) must not occur again between the brackets. So any text can be quoted wherever a pronoun can stand; this holds for any number of exchanges one after the other.","all token sequences and all pieces, whatever is before, between and after","Texts, what is between the brackets, and where the piece stands are unbounded; a parser with ordered choice may read ahead beyond any piece, or fall back to another reading because of what is in it.",[CS+"/rules/mod.rs:SumtiComponent1",CS+"/rules/mod.rs:LuSumti",CS+"/rules/mod.rs:GadriSumti",CS+"/rules/mod.rs:Free",CS+"/rules/mod.rs:RelativeClause",CS+"/rules/mod.rs:BoundArguments",CS+"/rules/mod.rs:Text"])
p("Exchanging, quoting and repeating what is written","For strings a, b and separators, the whole being below 4 GiB: a string read as a closed piece (C98) may be exchanged for any other string read as one of the same kind, and a string read as a word that can be repeated (C95) may be preceded by another one of its kind: the whole lexes and parses before exactly if it does after. In particular, for any string t that lexes and parses and has no quotes and no fa'o in it, a lu t li'u b lexes and parses exactly if a mi b does. a must not end with ba'e or fa'o, and neither a nor b contain zo, zoi, lo'u, zei or bu.","all strings below 2^32 bytes under these conditions, all separators","All the strings are arbitrary; the statement is about whole texts as they are typed, through lexer and parser.",[LX+":Lexer::next",CS+"/mod.rs:parse",CS+"/rules/mod.rs:LuSumti",CS+"/rules/mod.rs:SumtiComponent1"])
p("Pieces within pieces, quotes within quotes","The closed pieces of C98 may contain further ones, nested to any depth, each in the place of a piece of its kind (a note in a note, a clause within a clause, a quote in a quote, a description in either): such pieces, too, can be exchanged for each other anywhere (not after ba'e) without making a text of what is none or the other way round. In particular a text in which all quotes are closed, however deeply nested, is a text and can be quoted wherever a pronoun can stand, any number of times. With a quote that is not closed this is false: ga lu lu ko'a klama li'u cu klama gi ko'a is a text although ga ko'a cu klama gi ko'a is not.","all nested pieces of any depth, all token sequences around them","Nesting is unbounded, and what looks like the end of an inner quote may be that of an outer one.",[CS+"/rules/mod.rs:LuSumti",CS+"/rules/mod.rs:SumtiComponent1",CS+"/rules/mod.rs:Free",CS+"/rules/mod.rs:RelativeClause",CS+"/mod.rs:parse"])
p("The work is at most exponential, the nesting of the word rules linear","However long the input, and whatever it is: parsing n tokens makes at most 128^(33(n+1)) calls of Parse::parse, and any rule for words (gismu, lujvo, cmavo and so on) on n characters at most 16^(129(n+1)) calls of rule functions, nested at most 128(n+1) deep, so that it needs a stack at most linear in the length of the text. So the exponential growth of C55 and C88 is as bad as it gets. The trace messages are at most two per call, and indented at most as far as the calls are nested; classifying a word of n characters writes at most 10*16^(129(n+1)) of them, splitting a text of n characters into words at most 16^(132(n+1)), lexing it at most 16^(133(n+1)), indented by less than 256(n+1) columns.","all token sequences, all rules and all strings","Bounds on work and nesting are statements about all lengths; the recursion goes through dozens of functions with repetition and lookahead.",[RU,CS+"/rules/mod.rs",CS+"/parse_trait.rs:Parse","macros/src/lib.rs:debug_rule"])
p("Words that play the same part are interchangeable","Whether a token sequence is a text, and (but for the names of the nodes of brivla and indicators, and the tokens) its tree, depends only on the parts its words play: all brivla (gismu, lujvo, fu'ivla) play one part, all indicators (ui, cai, nai, da'o, fu'o, y) one - so a nai, too, may be replaced by ui anywhere -, the erasure words si, sa, su one, and so do the words no construct uses (experimental selma'o, unknown cmavo, unclassifiable words, delimiters of quotes). So any word can be put in the place of one that plays the same part, wherever it stands, in quotes and before bu and zei as well, and likewise in what is written: a string read as such a word (or row of words) for another one. These four parts are really different.","all token sequences, all pairs of words",inf,[CS+"/rules/mod.rs:Text",CS+"/rules/mod.rs:Indicator",CS+"/rules/mod.rs:Letter","src/lex/selmaho/mod.rs:Selmaho"])
p("The messages of errors say what is wrong","A lexing error has one of three messages, which tells its kind and nothing else, and is true of the text: a word opening a delimited quote with no word after it; such a word, a delimiter and no such delimiter after it; a word opening a pause-delimited quote with nothing but commas after it. The message of a failed parse is 'nom error: Eof' (then tokens are left over or there is a lo'u), or, only if there is a tei or ga'o, 'nom error: Not' or 'expected token with one of the selmaho [...], got ...', where only Foi (with a tei) or only Gaho (with a ga'o) is listed; never that a post-condition failed or that nothing was consumed. If two parses fail with the same message, then with the same error: same words expected, same token found. All messages are single lines of printable ASCII.","all texts below 2^32 bytes, all token sequences","Which messages occur at all, of the many the code contains, and whether what they say is true, is a statement about all texts.",["src/lex/mod.rs:Error","src/parse/cst/error.rs:Error",CS+"/mod.rs:parse"])
p("Input that is no text: where the program stops","Standard input is bytes. If they are the UTF-8 of a text the program does what C96 says of it and ends without panic. Otherwise, if anything was asked for: from a pipe it panics with nothing printed; at a terminal it handles all lines before the first that is not UTF-8, as C96 says, and panics at that line, whatever comes after it. These are all cases: so (no text having 4 GiB) the program always ends, and panics exactly if it was asked for something and the input is not UTF-8.","all byte sequences, all combinations of switches, all formatting surroundings","Invalid bytes may stand anywhere in an input of any length, also across ends of lines.",[EX+":main",EX+":repl"])
with open('/verif/properties.jsonl','w') as f:
    for x in P: f.write(json.dumps(x,ensure_ascii=False)+'\n')
print(len(P))
