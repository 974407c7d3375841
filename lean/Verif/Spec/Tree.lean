import Verif.Model.Cst

/-!
# What a tree contains

Specification side: the tokens of a tree from left to right, its nodes, and slices of a token sequence.
-/

namespace Sneturfahi.Spec

open Sneturfahi

mutual
/-- The tokens of a value, from left to right. -/
def tokens : Val → List Token
  | .leaf _ t => [t]
  | .node _ fs => tokensL fs
  | .tuple fs => tokensL fs
  | .many vs => tokensL vs
  | .sep first rest => tokens first ++ tokensL rest
/-- The tokens of several values. -/
def tokensL : List Val → List Token
  | [] => []
  | v :: vs => tokens v ++ tokensL vs
end

/-- `s` starts with the tokens `w`, and `r` is what remains of it. -/
def Cut (s : Toks) (w : List Token) (r : Toks) : Prop :=
  s.list = w ++ r.list ∧ r.ptr = s.ptr + w.length

/-- `r` is a tail of the slice `s`. -/
def TailOf (r s : Toks) : Prop := ∃ w, Cut s w r

/-- The values `vs` are what the type definitions behind `e` allow: fields in order, one variant of an enum,
any number of elements of a slice, one token where a token is called for, and of the right selmaho.
(`not` says nothing about the tree itself; `mustConsume` asks for a token, `postCond` for its condition.) -/
inductive Formed (g : CRule → Gr) : Gr → List Val → Prop
  | eps : Formed g .eps []
  | raw {s : Selmaho} {t : Token} : t.selmaho = s → Formed g (.raw s) [.leaf .token t]
  | any {k : LeafKind} {t : Token} : Formed g (.any k) [.leaf k t]
  | call {r : CRule} {vs : List Val} : Formed g (g r) vs → Formed g (.call r) vs
  | seq {a b : Gr} {vs ws : List Val} : Formed g a vs → Formed g b ws → Formed g (.seq a b) (vs ++ ws)
  | altLeft {a b : Gr} {vs : List Val} : Formed g a vs → Formed g (.alt a b) vs
  | altRight {a b : Gr} {vs : List Val} : Formed g b vs → Formed g (.alt a b) vs
  | absent {a : Gr} : Formed g (.opt a) [.many []]
  | present {a : Gr} {vs : List Val} : Formed g a vs → Formed g (.opt a) [.many vs]
  | many0 {a : Gr} {items : List (List Val)} : (∀ vs ∈ items, Formed g a vs) → Formed g (.many0 a) [.many items.flatten]
  | many1 {a : Gr} {items : List (List Val)} : items ≠ [] → (∀ vs ∈ items, Formed g a vs) →
      Formed g (.many1 a) [.many items.flatten]
  | manyTill {a stop : Gr} {items : List (List Val)} {ws : List Val} : (∀ vs ∈ items, Formed g a vs) →
      Formed g stop ws → Formed g (.manyTill a stop) (.many items.flatten :: ws)
  | not {a : Gr} : Formed g (.not a) []
  | cut {a : Gr} {vs : List Val} : Formed g a vs → Formed g (.cut a) vs
  | mustConsume {n : NodeName} {a : Gr} {vs : List Val} : Formed g a vs → tokensL vs ≠ [] →
      Formed g (.mustConsume n a) vs
  | postCond {c : PostCond} {a : Gr} {vs : List Val} : Formed g a vs → c.holds vs = true → Formed g (.postCond c a) vs
  | wrap {sh : CShape} {a : Gr} {vs : List Val} : Formed g a vs → Formed g (.wrap sh a) [sh.build vs]

/-- A token without its span and flag: what is left is the selmaho. -/
def blank (t : Token) : Token := ⟨false, t.selmaho, ⟨0, 0⟩⟩

mutual
/-- A tree with each token replaced. -/
def relabel (f : Token → Token) : Val → Val
  | .leaf k t => .leaf k (f t)
  | .node n fs => .node n (relabelL f fs)
  | .tuple fs => .tuple (relabelL f fs)
  | .many vs => .many (relabelL f vs)
  | .sep first rest => .sep (relabel f first) (relabelL f rest)
/-- The same for several trees. -/
def relabelL (f : Token → Token) : List Val → List Val
  | [] => []
  | v :: vs => relabel f v :: relabelL f vs
end

/-- Two trees are equal but for the spans and flags of their tokens. -/
def SameShape (v w : Val) : Prop := relabel blank v = relabel blank w

/-- Two errors say the same but for the spans and flags of the tokens they mention, equally far from the end. -/
def SameError (e e' : Located) : Prop :=
  e.location.list.length = e'.location.list.length ∧
  match e.error, e'.error with
  | .expectedGot ex got, .expectedGot ex' got' => ex = ex' ∧ got.map Token.selmaho = got'.map Token.selmaho
  | a, b => a = b

/-- Two outcomes say the same but for the spans and flags of tokens. -/
def SameOutcome : Except Located Val → Except Located Val → Prop
  | .ok v, .ok v' => SameShape v v'
  | .error e, .error e' => SameError e e'
  | _, _ => False

mutual
/-- `sub` is part of `v`: `v` itself or part of a field. -/
inductive PartOf : Val → Val → Prop
  | self {v : Val} : PartOf v v
  | node {v : Val} {n : NodeName} {fs : List Val} : PartOfL v fs → PartOf v (.node n fs)
  | tuple {v : Val} {fs : List Val} : PartOfL v fs → PartOf v (.tuple fs)
  | many {v : Val} {vs : List Val} : PartOfL v vs → PartOf v (.many vs)
  | sepFirst {v first : Val} {rest : List Val} : PartOf v first → PartOf v (.sep first rest)
  | sepRest {v first : Val} {rest : List Val} : PartOfL v rest → PartOf v (.sep first rest)
/-- `sub` is part of one of several values. -/
inductive PartOfL : Val → List Val → Prop
  | head {v w : Val} {ws : List Val} : PartOf v w → PartOfL v (w :: ws)
  | tail {v w : Val} {ws : List Val} : PartOfL v ws → PartOfL v (w :: ws)
end

/-- The next word, after any `ba'e`, is neither `bu` nor `zei`, which would make use of the word before. -/
def NotBound (post : List Token) : Prop := ∀ bs t rest, post = bs ++ t :: rest → (∀ b ∈ bs, b.selmaho = .Bahe) →
  t.selmaho ≠ .Bu ∧ t.selmaho ≠ .Zei

/-- The nodes that take words as they come, whatever they are: `zo` and the word after it, `lo'u` .. `le'u`, `zei` and the
word after it, the word before `bu` or `zei`. -/
def quoting : List NodeName := [.ZoSumti, .LohuSumti, .ZeiTail, .BuInner]

mutual
/-- The tokens of a tree that are used as what they are: not in one of these nodes, and neither delimiter nor content of
a `zoi` quote. -/
def unquoted : Val → List Token
  | .leaf .token t => [t]
  | .leaf .zoiDelimiter _ => []
  | .leaf .zoiText _ => []
  | .node n fs => if n ∈ quoting then [] else unquotedL fs
  | .tuple fs => unquotedL fs
  | .many vs => unquotedL vs
  | .sep first rest => unquoted first ++ unquotedL rest
/-- The same for several trees. -/
def unquotedL : List Val → List Token
  | [] => []
  | v :: vs => unquoted v ++ unquotedL vs
end

/-- The selma'o that no construct of the grammar makes use of: the experimental ones, the erasure words, unknown cmavo,
unclassifiable words, and the lexer's delimiters of quotes. -/
def Unused (s : Selmaho) : Prop :=
  s.isFundamentallyExperimental = true ∨ s ∈ [Selmaho.Si, .Sa, .Su, .UnknownCmavo, .AnyText, .ZoiDelimiter]

/-- Quotes are exactly the three tokens after a `zoi`, and no other token is a quote delimiter or unusable. -/
inductive QuotedByFour : List Token → Prop
  | nil : QuotedByFour []
  | word {t : Token} {l : List Token} : ¬ Unused t.selmaho → t.selmaho ≠ .Zoi → QuotedByFour l → QuotedByFour (t :: l)
  | quote {z a b c : Token} {l : List Token} : z.selmaho = .Zoi → QuotedByFour l → QuotedByFour (z :: a :: b :: c :: l)

end Sneturfahi.Spec
