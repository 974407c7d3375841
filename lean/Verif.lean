import Verif.Model.Lex
import Verif.Props.Span
import Verif.Props.Rules
import Verif.Props.Decompose
import Verif.Props.Mixed
import Verif.Props.Classify
import Verif.Props.ClassifyMore
import Verif.Props.Lex
import Verif.Props.Cst
import Verif.Props.Trace
import Verif.Props.Main
import Verif.Props.CstMore
import Verif.Props.Words
import Verif.Props.Compound
import Verif.Props.CstEnd
import Verif.Props.CstShape
import Verif.Props.Quotes
import Verif.Props.CmavoForm
import Verif.Props.Alone
import Verif.Props.Join
import Verif.Props.Sentence
import Verif.Props.Letters
import Verif.Props.Nai
import Verif.Props.Decor
import Verif.Props.Brivla
import Verif.Props.Source
import Verif.Props.Decl
import Verif.Props.RuleText
import Verif.Props.TableText
import Verif.Props.Names
import Verif.Props.Lujvo
import Verif.Props.Whole
import Verif.Props.Elide
import Verif.Props.Work
import Verif.Props.Written
import Verif.Props.Fuhivla
import Verif.Props.WordForms
import Verif.Props.Division
import Verif.Props.BrivlaLetters
import Verif.Props.Repeat
import Verif.Props.Program
import Verif.Props.ReadBack
import Verif.Props.Swap
import Verif.Props.WrittenMore
import Verif.Props.Nest
import Verif.Props.WorkMost
import Verif.Props.Roles
import Verif.Props.WorkApi
import Verif.Model.Messages
import Verif.Props.Messages
import Verif.Model.Bytes
import Verif.Spec.Utf8
import Verif.Proof.Bytes
import Verif.Props.Bytes
