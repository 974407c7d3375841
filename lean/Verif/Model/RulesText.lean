import Verif.Model.Prim

/-!
# The text of `src/rules.rs`

Generated by `tools/gen_source.py`: the file, unchanged, as lists of lines.  What it means is the
business of `Model/Rust.lean` and `Model/RuleText.lean`.
-/

namespace Sneturfahi.Source

/-- `src/rules.rs:1-40` -/
def rulesRs0 : List (List Char) :=
  [c!"#![allow(dead_code, unused_macros)]",
   c!"#![allow(clippy::unnecessary_wraps)] // consistency",
   c!"",
   c!"use std::cell::Cell;",
   c!"",
   c!"use macros::debug_rule;",
   c!"",
   c!"std::thread_local! {",
   c!"\tpub static PARSER_LEVEL: Cell<usize> = Cell::new(0);",
   c!"}",
   c!"",
   c!"macro_rules! debug_rule_start {",
   c!"\t($name:expr) => {",
   c!"\t\tPARSER_LEVEL.with(|stack| {",
   c!"\t\t\tlet name = $name;",
   c!"\t\t\tlet level = stack.replace(stack.get() + 1);",
   c!"\t\t\tlog::trace!(\"{:width$ }entering {name:?} rule\", \"\", width = level * 2);",
   c!"\t\t})",
   c!"\t};",
   c!"}",
   c!"",
   c!"macro_rules! debug_rule_end {",
   c!"\t($name:expr, $result:expr) => {",
   c!"\t\tPARSER_LEVEL.with(|stack| {",
   c!"\t\t\tlet name = $name;",
   c!"\t\t\tlet level = stack.replace(stack.get().checked_sub(1).unwrap()) - 1;",
   c!"\t\t\tlet message = if $result.is_some() {",
   c!"\t\t\t\t\"succeeded\"",
   c!"\t\t\t} else {",
   c!"\t\t\t\t\"failed\"",
   c!"\t\t\t};",
   c!"\t\t\tlog::trace!(",
   c!"\t\t\t\t\"{:width$ }exiting {name:?} rule: {message}\",",
   c!"\t\t\t\t\"\",",
   c!"\t\t\t\twidth = level * 2",
   c!"\t\t\t);",
   c!"\t\t})",
   c!"\t};",
   c!"}",
   c!""]

/-- `src/rules.rs:41-80` -/
def rulesRs1 : List (List Char) :=
  [c!"macro_rules! impl_parse {",
   c!"\t() => {",
   c!"\t\timpl (for<'impl_parse> Fn(&'impl_parse str) -> Option<(&'impl_parse str, &'impl_parse str)>)",
   c!"\t}",
   c!"}",
   c!"",
   c!"macro_rules! not {",
   c!"\t($val:expr) => {",
   c!"\t\tif $val.is_some() {",
   c!"\t\t\treturn None;",
   c!"\t\t}",
   c!"\t};",
   c!"}",
   c!"",
   c!"fn null(input: &str) -> ParseResult<'_> {",
   c!"\tSome(input.split_at(0))",
   c!"}",
   c!"",
   c!"fn not(parser: impl_parse!()) -> impl_parse!() {",
   c!"\tmove |input| {",
   c!"\t\tif parser(input).is_some() {",
   c!"\t\t\tNone",
   c!"\t\t} else {",
   c!"\t\t\tSome(input.split_at(0))",
   c!"\t\t}",
   c!"\t}",
   c!"}",
   c!"",
   c!"macro_rules! peek {",
   c!"\t($val:expr) => {",
   c!"\t\tif $val.is_none() {",
   c!"\t\t\treturn None;",
   c!"\t\t}",
   c!"\t};",
   c!"}",
   c!"",
   c!"fn peek(parser: impl_parse!()) -> impl_parse!() {",
   c!"\tmove |input| parser(input).and(null(input))",
   c!"}",
   c!""]

/-- `src/rules.rs:81-120` -/
def rulesRs2 : List (List Char) :=
  [c!"macro_rules! or {",
   c!"\t($($parsers:expr),+ $(,)?) => {",
   c!"\t\tmove |input| {",
   c!"\t\t\t$(if let Some(ret) = $parsers(input) { return Some(ret); })+",
   c!"\t\t\treturn None;",
   c!"\t\t}",
   c!"\t};",
   c!"\t(longest=> $($parsers:expr),+ $(,)?) => {",
   c!"\t\tmove |input| {",
   c!"\t\t\tlet results = [$($parsers(input),)+];",
   c!"\t\t\tresults.into_iter().filter_map(|result| result).min_by_key(|(_matched, rest)| rest.len())",
   c!"\t\t}",
   c!"\t};",
   c!"}",
   c!"",
   c!"fn opt(parser: impl_parse!()) -> impl_parse!() {",
   c!"\tor![parser, null]",
   c!"}",
   c!"",
   c!"macro_rules! seq {",
   c!"\t($first:expr $(, $parsers:expr)* $(,)?) => {",
   c!"\t\t|input| {",
   c!"\t\t\tlet (first_matched, mut rest) = $first(input)?;",
   c!"\t\t\tlet first_ptr = first_matched.as_ptr() as usize;",
   c!"\t\t\t#[allow(unused_assignments)] // the expanded other parsers could overwrite them",
   c!"\t\t\tlet mut last_ptr = first_ptr + first_matched.len();",
   c!"\t\t\t$({",
   c!"\t\t\t\tlet (matched, new_rest) = $parsers(rest)?;",
   c!"\t\t\t\t#[allow(unused_assignments)] // the expanded other parsers could overwrite them",
   c!"\t\t\t\t{ last_ptr = matched.as_ptr() as usize + matched.len(); }",
   c!"\t\t\t\trest = new_rest;",
   c!"\t\t\t})*",
   c!"\t\t\tlet input_ptr = input.as_ptr() as usize;",
   c!"\t\t\t\tSome((&input[(first_ptr - input_ptr)..(last_ptr - input_ptr)], rest))",
   c!"\t\t}",
   c!"\t};",
   c!"}",
   c!"",
   c!"macro_rules! group {",
   c!"\t($name:ident: [$($members:ident),+ $(,)?]) => {"]

/-- `src/rules.rs:121-160` -/
def rulesRs3 : List (List Char) :=
  [c!"\t\tfn $name(input: &str) -> ParseResult<'_> {",
   c!"\t\t\tor![$($members,)+](input)",
   c!"\t\t}",
   c!"\t}",
   c!"}",
   c!"",
   c!"type ParseResult<'a> = Option<(&'a str, &'a str)>;",
   c!"",
   c!"pub trait ParseResultExt {",
   c!"\tfn and_peek(self, peeker: impl_parse!()) -> Self;",
   c!"\tfn and_not(self, peeker: impl_parse!()) -> Self;",
   c!"\tfn succeeded_and_consumed_all(self) -> bool;",
   c!"}",
   c!"",
   c!"impl ParseResultExt for ParseResult<'_> {",
   c!"\tfn and_peek(self, peeker: impl_parse!()) -> Self {",
   c!"\t\tself.filter(|(_ret, rest)| peeker(rest).is_some())",
   c!"\t}",
   c!"",
   c!"\tfn and_not(self, peeker: impl_parse!()) -> Self {",
   c!"\t\tself.filter(|(_ret, rest)| peeker(rest).is_none())",
   c!"\t}",
   c!"",
   c!"\tfn succeeded_and_consumed_all(self) -> bool {",
   c!"\t\tself.map_or(false, |(_matched, rest)| rest.is_empty())",
   c!"\t}",
   c!"}",
   c!"",
   c!"pub fn eof(input: &str) -> Option<(&str, &str)> {",
   c!"\tif input.is_empty() {",
   c!"\t\t// to maintain the original pointer",
   c!"\t\tSome(input.split_at(0))",
   c!"\t} else {",
   c!"\t\tNone",
   c!"\t}",
   c!"}",
   c!"",
   c!"fn one_of(chs: &str) -> impl (for<'a> Fn(&'a str) -> ParseResult<'a>) + '_ {",
   c!"\tmove |input| {",
   c!"\t\tlet mut chars_orig = input.chars();"]

/-- `src/rules.rs:161-200` -/
def rulesRs4 : List (List Char) :=
  [c!"\t\tlet first = chars_orig.find(|&ch| ch != ',')?;",
   c!"\t\tlet remaining_offset = chars_orig.as_str().as_ptr() as usize - input.as_ptr() as usize;",
   c!"\t\tif chs.contains(first) {",
   c!"\t\t\tSome(input.split_at(remaining_offset))",
   c!"\t\t} else {",
   c!"\t\t\tNone",
   c!"\t\t}",
   c!"\t}",
   c!"}",
   c!"",
   c!"fn _slice_until_sub<'a>(container: &'a str, sub: &'_ str) -> &'a str {",
   c!"\tlet end = (sub.as_ptr() as usize) - (container.as_ptr() as usize);",
   c!"\t&container[0..end]",
   c!"}",
   c!"",
   c!"fn repeat(min: usize, parser: impl_parse!()) -> impl_parse!() {",
   c!"\tmove |input| {",
   c!"\t\tlet mut rest = input;",
   c!"\t\tlet mut first = None;",
   c!"\t\tlet mut last = input.as_ptr() as usize;",
   c!"\t\tlet mut num_matches = 0;",
   c!"\t\twhile let Some((this_chunk, new_rest)) = parser(rest) {",
   c!"\t\t\tnum_matches += 1;",
   c!"\t\t\trest = new_rest;",
   c!"\t\t\tfirst.get_or_insert(this_chunk.as_ptr() as usize);",
   c!"\t\t\tlast = this_chunk.as_ptr() as usize + this_chunk.len();",
   c!"\t\t}",
   c!"",
   c!"\t\tif num_matches < min {",
   c!"\t\t\treturn None;",
   c!"\t\t}",
   c!"",
   c!"\t\tlet input_start = input.as_ptr() as usize;",
   c!"\t\tlet first = first.unwrap_or(input_start);",
   c!"\t\tlet first_offset = first - input_start;",
   c!"\t\tlet last_offset = last - input_start;",
   c!"",
   c!"\t\tSome((&input[first_offset..last_offset], rest))",
   c!"\t}",
   c!"}"]

/-- `src/rules.rs:201-240` -/
def rulesRs5 : List (List Char) :=
  [c!"",
   c!"/*",
   c!"fn eat_commas(input: &str) -> &str {",
   c!"\tlet num_commas = input.chars().take_while(|&ch| ch == ',').count();",
   c!"\t&input[num_commas..]",
   c!"}",
   c!"*/",
   c!"",
   c!"fn h(input: &str) -> ParseResult<'_> {",
   c!"\tone_of(\"'h\")(input).and_peek(nucleus)",
   c!"}",
   c!"",
   c!"macro_rules! consonant_rule {",
   c!"\t($name:ident, $one_ofs:expr $(, $nots:ident)*) => {",
   c!"\t\tfn $name(input: &str) -> ParseResult<'_> {",
   c!"\t\t\tone_of($one_ofs)(input).and_not(or![h, glide, $name $(, $nots)*])",
   c!"\t\t}",
   c!"\t};",
   c!"}",
   c!"",
   c!"consonant_rule!(b, \"bB\", unvoiced);",
   c!"consonant_rule!(c, \"cC\", s, x, voiced);",
   c!"consonant_rule!(d, \"dD\", unvoiced);",
   c!"consonant_rule!(f, \"fF\", voiced);",
   c!"consonant_rule!(g, \"gG\", unvoiced);",
   c!"consonant_rule!(j, \"jJ\", z, unvoiced);",
   c!"consonant_rule!(k, \"kK\", x, voiced);",
   c!"consonant_rule!(l, \"lL\");",
   c!"consonant_rule!(m, \"mM\", z);",
   c!"consonant_rule!(n, \"nN\", affricate);",
   c!"consonant_rule!(p, \"pP\", voiced);",
   c!"consonant_rule!(r, \"rR\");",
   c!"consonant_rule!(s, \"sS\", c, voiced);",
   c!"consonant_rule!(t, \"tT\", voiced);",
   c!"consonant_rule!(v, \"vV\", unvoiced);",
   c!"consonant_rule!(x, \"xX\", c, k, voiced);",
   c!"consonant_rule!(z, \"zZ\", j, unvoiced);",
   c!"",
   c!"group!(liquid: [l, r]);",
   c!"group!(syllabic: [l, m, n, r]);"]

/-- `src/rules.rs:241-280` -/
def rulesRs6 : List (List Char) :=
  [c!"group!(voiced: [b, d, g, j, v, z]);",
   c!"group!(unvoiced: [c, f, k, p, s, t, x]);",
   c!"",
   c!"group!(consonant: [voiced, unvoiced, syllabic]);",
   c!"",
   c!"fn other(input: &str) -> ParseResult<'_> {",
   c!"\tor![",
   c!"\t\tp,",
   c!"\t\tk,",
   c!"\t\tf,",
   c!"\t\tx,",
   c!"\t\tb,",
   c!"\t\tg,",
   c!"\t\tv,",
   c!"\t\tm,",
   c!"\t\tseq![n, not(liquid)],",
   c!"\t\tseq![or![t, d], not(l)]",
   c!"\t](input)",
   c!"}",
   c!"",
   c!"fn sibilant(input: &str) -> ParseResult<'_> {",
   c!"\tor![c, seq![s, not(x)], seq![or![j, z], not(n), not(liquid)],](input)",
   c!"}",
   c!"",
   c!"fn affricate(input: &str) -> ParseResult<'_> {",
   c!"\tor![seq![t, or![c, s]], seq![d, or![j, z]]](input)",
   c!"}",
   c!"",
   c!"macro_rules! vowel_rule {",
   c!"\t($name:ident, $one_ofs:expr) => {",
   c!"\t\tfn $name(input: &str) -> ParseResult<'_> {",
   c!"\t\t\tone_of($one_ofs)(input)",
   c!"\t\t}",
   c!"\t};",
   c!"}",
   c!"",
   c!"vowel_rule!(a, \"aA\");",
   c!"vowel_rule!(e, \"eE\");",
   c!"vowel_rule!(i, \"iI\");",
   c!"vowel_rule!(o, \"oO\");"]

/-- `src/rules.rs:281-320` -/
def rulesRs7 : List (List Char) :=
  [c!"vowel_rule!(u, \"uU\");",
   c!"vowel_rule!(y, \"yY\");",
   c!"",
   c!"#[debug_rule]",
   c!"fn vowel(input: &str) -> ParseResult<'_> {",
   c!"\tone_of(\"aAeEiIoOuUyY\")(input).and_not(nucleus)",
   c!"}",
   c!"",
   c!"#[test]",
   c!"fn test_vowel() {",
   c!"\tassert!(vowel(\",,,,,a\").succeeded_and_consumed_all());",
   c!"}",
   c!"",
   c!"#[debug_rule]",
   c!"fn diphthong(input: &str) -> ParseResult<'_> {",
   c!"\tor![seq![a, or![i, u]], seq![or![e, o], i]](input).and_not(nucleus)",
   c!"}",
   c!"",
   c!"#[test]",
   c!"fn test_diphthong() {",
   c!"\tassert!(diphthong(\",,,,,a,,,,i\").succeeded_and_consumed_all());",
   c!"}",
   c!"",
   c!"#[debug_rule]",
   c!"pub fn nucleus(input: &str) -> ParseResult<'_> {",
   c!"\tor![vowel, diphthong, |input| y(input).and_not(nucleus)](input)",
   c!"}",
   c!"",
   c!"fn glide(input: &str) -> ParseResult<'_> {",
   c!"\tone_of(\"iIuU\")(input).and_peek(nucleus)",
   c!"}",
   c!"",
   c!"fn digit(input: &str) -> ParseResult<'_> {",
   c!"\tone_of(\"0123456789\")(input).and_not(or![h, nucleus])",
   c!"}",
   c!"",
   c!"#[debug_rule]",
   c!"pub fn cmevla(input: &str) -> ParseResult<'_> {",
   c!"\tnot!(h(input));",
   c!"\tseq!["]

/-- `src/rules.rs:321-360` -/
def rulesRs8 : List (List Char) :=
  [c!"\t\trepeat(",
   c!"\t\t\t0,",
   c!"\t\t\tor![",
   c!"\t\t\t\tnucleus,",
   c!"\t\t\t\tglide,",
   c!"\t\t\t\th,",
   c!"\t\t\t\t|input| consonant(input).and_not(eof),",
   c!"\t\t\t\tdigit",
   c!"\t\t\t],",
   c!"\t\t),",
   c!"\t\tconsonant,",
   c!"\t\teof",
   c!"\t](input)",
   c!"}",
   c!"",
   c!"#[debug_rule]",
   c!"pub fn cvcy_lujvo(input: &str) -> ParseResult<'_> {",
   c!"\tor![",
   c!"\t\tseq![cvc_rafsi, y, opt(h), repeat(0, initial_rafsi), brivla_core],",
   c!"\t\tseq![stressed_cvc_rafsi, y, short_final_rafsi]",
   c!"\t](input)",
   c!"}",
   c!"",
   c!"fn cluster(input: &str) -> ParseResult<'_> {",
   c!"\trepeat(2, consonant)(input)",
   c!"}",
   c!"",
   c!"fn initial(input: &str) -> ParseResult<'_> {",
   c!"\tor![affricate, seq![opt(sibilant), opt(other), opt(liquid)]](input)",
   c!"\t\t.and_not(consonant)",
   c!"\t\t.and_not(glide)",
   c!"}",
   c!"",
   c!"fn onset(input: &str) -> ParseResult<'_> {",
   c!"\tor![h, glide, initial](input)",
   c!"}",
   c!"",
   c!"fn stressed(input: &str) -> ParseResult<'_> {",
   c!"\tseq![onset, one_of(\"AEIOU\")](input)",
   c!"}"]

/-- `src/rules.rs:361-400` -/
def rulesRs9 : List (List Char) :=
  [c!"",
   c!"#[debug_rule]",
   c!"pub fn cmavo_form(input: &str) -> ParseResult<'_> {",
   c!"\tor![longest=>",
   c!"\t\tdigit, // e.g., 1 will be treated like pa",
   c!"\t\trepeat(1, y),",
   c!"\t\tseq![",
   c!"\t\t\tnot(h),",
   c!"\t\t\tnot(cluster),",
   c!"\t\t\tonset,",
   c!"\t\t\trepeat(0, seq![nucleus, h]),",
   c!"\t\t\tor![seq![not(stressed), nucleus], seq![nucleus, not(cluster)]]",
   c!"\t\t],",
   c!"\t](input)",
   c!"}",
   c!"",
   c!"#[test]",
   c!"fn test_yhy_cmavo() {",
   c!"\tassert_eq!(cmavo_form(\"y'y\"), Some((\"y'y\", \"\")));",
   c!"}",
   c!"",
   c!"pub fn post_word(input: &str) -> ParseResult<'_> {",
   c!"\tor![eof, seq![not(nucleus), lojban_word]](input)",
   c!"}",
   c!"",
   c!"fn initial_pair(input: &str) -> ParseResult<'_> {",
   c!"\tseq![peek(initial), consonant, consonant, not(consonant)](input)",
   c!"}",
   c!"",
   c!"fn consonantal_syllable(input: &str) -> ParseResult<'_> {",
   c!"\tseq![consonant, peek(syllabic), coda](input)",
   c!"}",
   c!"",
   c!"fn any_syllable(input: &str) -> ParseResult<'_> {",
   c!"\tor![seq![onset, nucleus, opt(coda)], consonantal_syllable](input)",
   c!"}",
   c!"",
   c!"fn coda(input: &str) -> ParseResult<'_> {",
   c!"\tor![",
   c!"\t\tseq![not(any_syllable), consonant, peek(any_syllable)],"]

/-- `src/rules.rs:401-440` -/
def rulesRs10 : List (List Char) :=
  [c!"\t\tseq![opt(syllabic), opt(consonant), eof]",
   c!"\t](input)",
   c!"}",
   c!"",
   c!"fn syllable(input: &str) -> ParseResult<'_> {",
   c!"\tseq![onset, not(y), nucleus, opt(coda)](input)",
   c!"}",
   c!"",
   c!"fn stress(input: &str) -> ParseResult<'_> {",
   c!"\tseq![repeat(0, consonant), opt(h), opt(y), syllable, eof](input)",
   c!"}",
   c!"",
   c!"fn explicitly_stressed_vowel(input: &str) -> ParseResult<'_> {",
   c!"\tseq![peek(stressed), vowel](input)",
   c!"}",
   c!"",
   c!"fn stressed_vowel(input: &str) -> ParseResult<'_> {",
   c!"\tor![explicitly_stressed_vowel, seq![vowel, peek(stress)]](input)",
   c!"}",
   c!"",
   c!"fn final_syllable(input: &str) -> ParseResult<'_> {",
   c!"\tseq![",
   c!"\t\tonset,",
   c!"\t\tnot(y),",
   c!"\t\tnot(stressed),",
   c!"\t\tnucleus,",
   c!"\t\tnot(cmevla),",
   c!"\t\tpeek(post_word),",
   c!"\t](input)",
   c!"}",
   c!"",
   c!"#[debug_rule]",
   c!"pub fn gismu(input: &str) -> ParseResult<'_> {",
   c!"\tseq![",
   c!"\t\tor![",
   c!"\t\t\tseq![initial_pair, stressed_vowel],",
   c!"\t\t\tseq![consonant, stressed_vowel, consonant],",
   c!"\t\t],",
   c!"\t\tpeek(final_syllable),",
   c!"\t\tconsonant,"]

/-- `src/rules.rs:441-480` -/
def rulesRs11 : List (List Char) :=
  [c!"\t\tvowel,",
   c!"\t\tpeek(post_word),",
   c!"\t](input)",
   c!"}",
   c!"",
   c!"fn cvc_rafsi(input: &str) -> ParseResult<'_> {",
   c!"\tseq![consonant, unstressed_vowel, consonant](input)",
   c!"}",
   c!"",
   c!"fn ccv_rafsi(input: &str) -> ParseResult<'_> {",
   c!"\tseq![initial_pair, unstressed_vowel](input)",
   c!"}",
   c!"",
   c!"fn unstressed_vowel(input: &str) -> ParseResult<'_> {",
   c!"\tseq![not(stressed), vowel, not(stress)](input)",
   c!"}",
   c!"",
   c!"fn unstressed_diphthong(input: &str) -> ParseResult<'_> {",
   c!"\tseq![not(stressed), diphthong, not(stress)](input)",
   c!"}",
   c!"",
   c!"fn r_hyphen(input: &str) -> ParseResult<'_> {",
   c!"\tor![seq![r, peek(consonant)], seq![n, peek(r)]](input)",
   c!"}",
   c!"",
   c!"fn cvv_rafsi(input: &str) -> ParseResult<'_> {",
   c!"\tseq![",
   c!"\t\tconsonant,",
   c!"\t\tor![",
   c!"\t\t\tseq![unstressed_vowel, h, unstressed_vowel],",
   c!"\t\t\tunstressed_diphthong,",
   c!"\t\t],",
   c!"\t\tr_hyphen,",
   c!"\t](input)",
   c!"}",
   c!"",
   c!"fn y_less_rafsi(input: &str) -> ParseResult<'_> {",
   c!"\tnot!(y_rafsi(input));",
   c!"\tnot!(stressed_y_rafsi(input));",
   c!"\tnot!(hy_rafsi(input));"]

/-- `src/rules.rs:481-520` -/
def rulesRs12 : List (List Char) :=
  [c!"\tnot!(stressed_hy_rafsi(input));",
   c!"\tor![cvc_rafsi, ccv_rafsi, cvv_rafsi](input).and_not(h)",
   c!"}",
   c!"",
   c!"fn cvv_final_rafsi(input: &str) -> ParseResult<'_> {",
   c!"\tseq![",
   c!"\t\tconsonant,",
   c!"\t\tstressed_vowel,",
   c!"\t\th,",
   c!"\t\tpeek(final_syllable),",
   c!"\t\tvowel,",
   c!"\t\tpeek(post_word),",
   c!"\t](input)",
   c!"}",
   c!"",
   c!"fn stressed_cvc_rafsi(input: &str) -> ParseResult<'_> {",
   c!"\tseq![consonant, stressed_vowel, consonant](input)",
   c!"}",
   c!"",
   c!"fn stressed_ccv_rafsi(input: &str) -> ParseResult<'_> {",
   c!"\tseq![initial_pair, stressed_vowel](input)",
   c!"}",
   c!"",
   c!"fn stressed_diphthong(input: &str) -> ParseResult<'_> {",
   c!"\tor![",
   c!"\t\tseq![peek(stressed), diphthong],",
   c!"\t\tseq![diphthong, peek(stress)],",
   c!"\t](input)",
   c!"}",
   c!"",
   c!"fn stressed_cvv_rafsi(input: &str) -> ParseResult<'_> {",
   c!"\tseq![",
   c!"\t\tconsonant,",
   c!"\t\tor![",
   c!"\t\t\tseq![unstressed_vowel, h, stressed_vowel],",
   c!"\t\t\tstressed_diphthong,",
   c!"\t\t],",
   c!"\t\topt(r_hyphen)",
   c!"\t](input)",
   c!"}"]

/-- `src/rules.rs:521-560` -/
def rulesRs13 : List (List Char) :=
  [c!"",
   c!"fn stressed_y_less_rafsi(input: &str) -> ParseResult<'_> {",
   c!"\tor![",
   c!"\t\tseq![stressed_cvc_rafsi, not(y)],",
   c!"\t\tstressed_ccv_rafsi,",
   c!"\t\tstressed_cvv_rafsi,",
   c!"\t](input)",
   c!"}",
   c!"",
   c!"fn long_rafsi(input: &str) -> ParseResult<'_> {",
   c!"\tor![",
   c!"\t\tseq![initial_pair, unstressed_vowel, consonant],",
   c!"\t\tseq![consonant, unstressed_vowel, consonant, consonant],",
   c!"\t](input)",
   c!"}",
   c!"",
   c!"fn hy_rafsi(input: &str) -> ParseResult<'_> {",
   c!"\tseq![",
   c!"\t\tor![seq![long_rafsi, vowel], ccv_rafsi, cvv_rafsi],",
   c!"\t\th,",
   c!"\t\ty,",
   c!"\t\topt(h)",
   c!"\t](input)",
   c!"}",
   c!"",
   c!"fn stressed_hy_rafsi(input: &str) -> ParseResult<'_> {",
   c!"\tseq![",
   c!"\t\tor![",
   c!"\t\t\tseq![long_rafsi, stressed_vowel],",
   c!"\t\t\tstressed_ccv_rafsi,",
   c!"\t\t\tstressed_cvv_rafsi",
   c!"\t\t],",
   c!"\t\th,",
   c!"\t\ty,",
   c!"\t](input)",
   c!"}",
   c!"",
   c!"fn y_rafsi(input: &str) -> ParseResult<'_> {",
   c!"\tseq![or![long_rafsi, cvc_rafsi], y, opt(h)](input)",
   c!"}"]

/-- `src/rules.rs:561-600` -/
def rulesRs14 : List (List Char) :=
  [c!"",
   c!"fn stressed_long_rafsi(input: &str) -> ParseResult<'_> {",
   c!"\tor![",
   c!"\t\tseq![initial_pair, stressed_vowel, consonant],",
   c!"\t\tseq![consonant, stressed_vowel, consonant, consonant],",
   c!"\t](input)",
   c!"}",
   c!"",
   c!"fn stressed_y_rafsi(input: &str) -> ParseResult<'_> {",
   c!"\tseq![or![stressed_long_rafsi, stressed_cvc_rafsi], y](input)",
   c!"}",
   c!"",
   c!"fn short_final_rafsi(input: &str) -> ParseResult<'_> {",
   c!"\tseq![",
   c!"\t\tpeek(final_syllable),",
   c!"\t\tor![seq![consonant, diphthong], seq![initial_pair, vowel]],",
   c!"\t\tpeek(post_word),",
   c!"\t](input)",
   c!"}",
   c!"",
   c!"fn rafsi_string(input: &str) -> ParseResult<'_> {",
   c!"\tseq![",
   c!"\t\trepeat(0, y_less_rafsi),",
   c!"\t\tor![",
   c!"\t\t\tgismu,",
   c!"\t\t\tcvv_final_rafsi,",
   c!"\t\t\tseq![stressed_y_less_rafsi, short_final_rafsi],",
   c!"\t\t\ty_rafsi,",
   c!"\t\t\tstressed_y_rafsi,",
   c!"\t\t\tseq![opt(stressed_y_less_rafsi), initial_pair, y],",
   c!"\t\t\thy_rafsi,",
   c!"\t\t\tstressed_hy_rafsi,",
   c!"\t\t]",
   c!"\t](input)",
   c!"}",
   c!"",
   c!"fn slinkuhi(input: &str) -> ParseResult<'_> {",
   c!"\tseq![not(rafsi_string), consonant, rafsi_string](input)",
   c!"}",
   c!""]

/-- `src/rules.rs:601-640` -/
def rulesRs15 : List (List Char) :=
  [c!"fn unstressed_syllable(input: &str) -> ParseResult<'_> {",
   c!"\tor![",
   c!"\t\tseq![not(stressed), syllable, not(stress)],",
   c!"\t\tconsonantal_syllable",
   c!"\t](input)",
   c!"}",
   c!"",
   c!"fn brivla_head(input: &str) -> ParseResult<'_> {",
   c!"\tseq![",
   c!"\t\tnot(cmavo),",
   c!"\t\tnot(slinkuhi),",
   c!"\t\tnot(h),",
   c!"\t\tpeek(onset),",
   c!"\t\trepeat(0, unstressed_syllable),",
   c!"\t](input)",
   c!"}",
   c!"",
   c!"fn fuhivla_head(input: &str) -> ParseResult<'_> {",
   c!"\tnot!(rafsi_string(input));",
   c!"\tbrivla_head(input)",
   c!"}",
   c!"",
   c!"fn explicitly_stressed_syllable(input: &str) -> ParseResult<'_> {",
   c!"\tseq![peek(stressed), syllable](input)",
   c!"}",
   c!"",
   c!"fn stressed_syllable(input: &str) -> ParseResult<'_> {",
   c!"\tor![explicitly_stressed_syllable, seq![syllable, peek(stress)]](input)",
   c!"}",
   c!"",
   c!"#[debug_rule]",
   c!"pub fn fuhivla(input: &str) -> ParseResult<'_> {",
   c!"\tseq![",
   c!"\t\tfuhivla_head,",
   c!"\t\tstressed_syllable,",
   c!"\t\trepeat(0, consonantal_syllable),",
   c!"\t\tfinal_syllable",
   c!"\t](input)",
   c!"}",
   c!""]

/-- `src/rules.rs:641-680` -/
def rulesRs16 : List (List Char) :=
  [c!"fn brivla_rafsi(input: &str) -> ParseResult<'_> {",
   c!"\tseq![",
   c!"\t\tpeek(seq![syllable, repeat(0, consonantal_syllable), syllable]),",
   c!"\t\tbrivla_head,",
   c!"\t\th,",
   c!"\t\ty,",
   c!"\t\topt(h),",
   c!"\t](input)",
   c!"}",
   c!"",
   c!"fn fuhivla_rafsi(input: &str) -> ParseResult<'_> {",
   c!"\tseq![",
   c!"\t\tpeek(unstressed_syllable),",
   c!"\t\tfuhivla_head,",
   c!"\t\tnot(h),",
   c!"\t\tonset,",
   c!"\t\ty,",
   c!"\t\topt(h)",
   c!"\t](input)",
   c!"}",
   c!"",
   c!"fn extended_rafsi(input: &str) -> ParseResult<'_> {",
   c!"\tor![brivla_rafsi, fuhivla_rafsi](input)",
   c!"}",
   c!"",
   c!"fn stressed_brivla_rafsi(input: &str) -> ParseResult<'_> {",
   c!"\tseq![",
   c!"\t\tpeek(unstressed_syllable),",
   c!"\t\tbrivla_head,",
   c!"\t\tstressed_syllable,",
   c!"\t\th,",
   c!"\t\ty,",
   c!"\t](input)",
   c!"}",
   c!"",
   c!"fn stressed_fuhivla_rafsi(input: &str) -> ParseResult<'_> {",
   c!"\tseq![fuhivla_head, stressed_syllable, not(h), onset, y](input)",
   c!"}",
   c!"",
   c!"fn stressed_extended_rafsi(input: &str) -> ParseResult<'_> {"]

/-- `src/rules.rs:681-720` -/
def rulesRs17 : List (List Char) :=
  [c!"\tor![stressed_brivla_rafsi, stressed_fuhivla_rafsi](input)",
   c!"}",
   c!"",
   c!"fn any_extended_rafsi(input: &str) -> ParseResult<'_> {",
   c!"\tor![fuhivla, extended_rafsi, stressed_extended_rafsi](input)",
   c!"}",
   c!"",
   c!"fn initial_rafsi(input: &str) -> ParseResult<'_> {",
   c!"\tor![",
   c!"\t\textended_rafsi,",
   c!"\t\ty_rafsi,",
   c!"\t\tseq![",
   c!"\t\t\tnot(any_extended_rafsi),",
   c!"\t\t\ty_less_rafsi,",
   c!"\t\t\tnot(any_extended_rafsi),",
   c!"\t\t]",
   c!"\t](input)",
   c!"}",
   c!"",
   c!"fn stressed_initial_rafsi(input: &str) -> ParseResult<'_> {",
   c!"\tor![",
   c!"\t\tstressed_extended_rafsi,",
   c!"\t\tstressed_y_rafsi,",
   c!"\t\tstressed_y_less_rafsi",
   c!"\t](input)",
   c!"}",
   c!"",
   c!"fn brivla_core(input: &str) -> ParseResult<'_> {",
   c!"\tor![",
   c!"\t\tfuhivla,",
   c!"\t\tgismu,",
   c!"\t\tcvv_final_rafsi,",
   c!"\t\tseq![stressed_initial_rafsi, short_final_rafsi]",
   c!"\t](input)",
   c!"}",
   c!"",
   c!"#[debug_rule]",
   c!"pub fn explicitly_stressed_gismu_minimal(input: &str) -> ParseResult<'_> {",
   c!"\tseq![",
   c!"\t\tor!["]

/-- `src/rules.rs:721-760` -/
def rulesRs18 : List (List Char) :=
  [c!"\t\t\tseq![initial_pair, explicitly_stressed_vowel],",
   c!"\t\t\tseq![consonant, explicitly_stressed_vowel, consonant],",
   c!"\t\t],",
   c!"\t\tpeek(final_syllable),",
   c!"\t\tconsonant,",
   c!"\t\tvowel,",
   c!"\t](input)",
   c!"}",
   c!"",
   c!"fn final_syllable_minimal(input: &str) -> ParseResult<'_> {",
   c!"\tseq![onset, not(y), not(stressed), nucleus](input)",
   c!"}",
   c!"",
   c!"#[debug_rule]",
   c!"pub fn explicitly_stressed_fuhivla_minimal(input: &str) -> ParseResult<'_> {",
   c!"\tseq![",
   c!"\t\tfuhivla_head,",
   c!"\t\texplicitly_stressed_syllable,",
   c!"\t\trepeat(0, consonantal_syllable),",
   c!"\t\tfinal_syllable_minimal",
   c!"\t](input)",
   c!"}",
   c!"",
   c!"fn explicitly_stressed_cvv_final_rafsi(input: &str) -> ParseResult<'_> {",
   c!"\tseq![",
   c!"\t\tconsonant,",
   c!"\t\texplicitly_stressed_vowel,",
   c!"\t\th,",
   c!"\t\tpeek(final_syllable),",
   c!"\t\tvowel,",
   c!"\t\tpeek(post_word),",
   c!"\t](input)",
   c!"}",
   c!"",
   c!"fn explicitly_stressed_brivla_rafsi(input: &str) -> ParseResult<'_> {",
   c!"\tseq![",
   c!"\t\tpeek(unstressed_syllable),",
   c!"\t\tbrivla_head,",
   c!"\t\texplicitly_stressed_syllable,",
   c!"\t\th,"]

/-- `src/rules.rs:761-800` -/
def rulesRs19 : List (List Char) :=
  [c!"\t\ty,",
   c!"\t](input)",
   c!"}",
   c!"",
   c!"fn explicitly_stressed_fuhivla_rafsi(input: &str) -> ParseResult<'_> {",
   c!"\tseq![fuhivla_head, explicitly_stressed_syllable, not(h), onset, y](input)",
   c!"}",
   c!"",
   c!"fn explicitly_stressed_extended_rafsi(input: &str) -> ParseResult<'_> {",
   c!"\tor![",
   c!"\t\texplicitly_stressed_brivla_rafsi,",
   c!"\t\texplicitly_stressed_fuhivla_rafsi",
   c!"\t](input)",
   c!"}",
   c!"",
   c!"fn explicitly_stressed_long_rafsi(input: &str) -> ParseResult<'_> {",
   c!"\tor![",
   c!"\t\tseq![initial_pair, explicitly_stressed_vowel, consonant],",
   c!"\t\tseq![consonant, explicitly_stressed_vowel, consonant, consonant],",
   c!"\t](input)",
   c!"}",
   c!"",
   c!"fn explicitly_stressed_cvc_rafsi(input: &str) -> ParseResult<'_> {",
   c!"\tseq![consonant, explicitly_stressed_vowel, consonant](input)",
   c!"}",
   c!"",
   c!"fn explicitly_stressed_y_rafsi(input: &str) -> ParseResult<'_> {",
   c!"\tseq![",
   c!"\t\tor![",
   c!"\t\t\texplicitly_stressed_long_rafsi,",
   c!"\t\t\texplicitly_stressed_cvc_rafsi,",
   c!"\t\t],",
   c!"\t\ty",
   c!"\t](input)",
   c!"}",
   c!"",
   c!"fn explicitly_stressed_ccv_rafsi(input: &str) -> ParseResult<'_> {",
   c!"\tseq![initial_pair, explicitly_stressed_vowel](input)",
   c!"}",
   c!""]

/-- `src/rules.rs:801-840` -/
def rulesRs20 : List (List Char) :=
  [c!"fn explicitly_stressed_diphthong(input: &str) -> ParseResult<'_> {",
   c!"\tseq![peek(stressed), diphthong](input)",
   c!"}",
   c!"",
   c!"fn explicitly_stressed_cvv_rafsi(input: &str) -> ParseResult<'_> {",
   c!"\tseq![",
   c!"\t\tconsonant,",
   c!"\t\tor![",
   c!"\t\t\tseq![unstressed_vowel, h, explicitly_stressed_vowel],",
   c!"\t\t\texplicitly_stressed_diphthong,",
   c!"\t\t],",
   c!"\t\topt(r_hyphen)",
   c!"\t](input)",
   c!"}",
   c!"",
   c!"fn explicitly_stressed_y_less_rafsi(input: &str) -> ParseResult<'_> {",
   c!"\tor![",
   c!"\t\tseq![explicitly_stressed_cvc_rafsi, not(y)],",
   c!"\t\texplicitly_stressed_ccv_rafsi,",
   c!"\t\texplicitly_stressed_cvv_rafsi,",
   c!"\t](input)",
   c!"}",
   c!"",
   c!"fn explicitly_stressed_initial_rafsi(input: &str) -> ParseResult<'_> {",
   c!"\tor![",
   c!"\t\texplicitly_stressed_extended_rafsi,",
   c!"\t\texplicitly_stressed_y_rafsi,",
   c!"\t\texplicitly_stressed_y_less_rafsi",
   c!"\t](input)",
   c!"}",
   c!"",
   c!"fn explicitly_stressed_brivla_core(input: &str) -> ParseResult<'_> {",
   c!"\tor![",
   c!"\t\texplicitly_stressed_fuhivla_minimal,",
   c!"\t\texplicitly_stressed_gismu_minimal,",
   c!"\t\texplicitly_stressed_cvv_final_rafsi,",
   c!"\t\tseq![explicitly_stressed_initial_rafsi, short_final_rafsi]",
   c!"\t](input)",
   c!"}",
   c!""]

/-- `src/rules.rs:841-880` -/
def rulesRs21 : List (List Char) :=
  [c!"pub fn explicitly_stressed_brivla_minimal(input: &str) -> ParseResult<'_> {",
   c!"\tseq![repeat(0, initial_rafsi), explicitly_stressed_brivla_core](input)",
   c!"}",
   c!"",
   c!"#[debug_rule]",
   c!"pub fn lujvo(input: &str) -> ParseResult<'_> {",
   c!"\tseq![",
   c!"\t\tnot(gismu),",
   c!"\t\tnot(fuhivla),",
   c!"\t\tnot(cmavo),",
   c!"\t\trepeat(0, initial_rafsi),",
   c!"\t\tbrivla_core",
   c!"\t](input)",
   c!"}",
   c!"",
   c!"/// preconditions: decomposed up to this point (thus implying `!cmavo`), and `!gismu !fuhivla`",
   c!"#[debug_rule]",
   c!"pub fn lujvo_minimal(input: &str) -> ParseResult<'_> {",
   c!"\tseq![repeat(0, initial_rafsi), brivla_core](input)",
   c!"}",
   c!"",
   c!"#[debug_rule]",
   c!"pub fn brivla(input: &str) -> ParseResult<'_> {",
   c!"\tor![gismu, fuhivla, seq![not(cmavo), lujvo_minimal]](input)",
   c!"}",
   c!"",
   c!"/// preconditions: !cmavo",
   c!"#[debug_rule]",
   c!"pub fn brivla_minimal(input: &str) -> ParseResult<'_> {",
   c!"\tor![gismu, fuhivla, lujvo_minimal](input)",
   c!"}",
   c!"",
   c!"#[debug_rule]",
   c!"pub fn lojban_word(input: &str) -> ParseResult<'_> {",
   c!"\tor![",
   c!"\t\tcmevla,",
   c!"\t\tcmavo_semi_minimal, // already checked for cmevla",
   c!"\t\tbrivla_minimal,",
   c!"\t](input)",
   c!"}"]

/-- `src/rules.rs:881-898` -/
def rulesRs22 : List (List Char) :=
  [c!"",
   c!"#[debug_rule]",
   c!"pub fn cmavo(input: &str) -> ParseResult<'_> {",
   c!"\tnot!(cmevla(input));",
   c!"\tcmavo_semi_minimal(input)",
   c!"}",
   c!"",
   c!"/// preconditions: `!cmevla`",
   c!"/// postconditions: `&post_word`",
   c!"pub fn cmavo_minimal(input: &str) -> ParseResult<'_> {",
   c!"\tnot!(cvcy_lujvo(input));",
   c!"\tcmavo_form(input)",
   c!"}",
   c!"",
   c!"/// preconditions: `!cmevla`",
   c!"pub fn cmavo_semi_minimal(input: &str) -> ParseResult<'_> {",
   c!"\tcmavo_minimal(input).and_peek(post_word)",
   c!"}"]

/-- `src/rules.rs` -/
def rulesRs : List (List (List Char)) :=
  [rulesRs0, rulesRs1, rulesRs2, rulesRs3, rulesRs4, rulesRs5, rulesRs6, rulesRs7, rulesRs8, rulesRs9, rulesRs10, rulesRs11, rulesRs12, rulesRs13, rulesRs14, rulesRs15, rulesRs16, rulesRs17, rulesRs18, rulesRs19, rulesRs20, rulesRs21, rulesRs22]

end Sneturfahi.Source
