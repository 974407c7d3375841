# generates Proof/CstWitness.lean and Proof/CstCover.lean
import re,json
cov=json.load(open('/verif/tools/cover.json'))
t=open('/verif/lean/Verif/Model/CstNames.lean').read()
m=re.search(r'inductive NodeName where(.*?)deriving',t,re.S).group(1)
names=re.findall(r'\| (\w+)',m)
r=open('/verif/lean/Verif/Model/CstRules.lean').read()
body=r[r.index('def cst :'):]
home={};cur=None
for l in body.split('\n'):
    m=re.match(r'  \| \.(\w+) =>',l)
    if m: cur=m.group(1)
    for n in re.findall(r'\.wrap \(\.node \.(\w+)\)',l): home.setdefault(n,[]).append(cur)
gen=[n for n in names if n not in home and n!='word']
out='''import Verif.Model.CstRules

/-!
# Where nodes are made
-/

namespace Sneturfahi

/-- The nodes of generic types, which several productions make. -/
def genericNodes : List NodeName := [%s]

/-- The production that makes a node (arbitrary for generic types). -/
def home : NodeName → CRule
%s  | .word s => .word s
  | _ => .Text

end Sneturfahi
'''%(', '.join('.'+g for g in gen), ''.join('  | .%s => .%s\n'%(n,home[n][0]) for n in names if n in home))
open('/verif/lean/Verif/Proof/CstWitness.lean','w').write(out)
def par(n): return n
out='''import Verif.Props.CstMore
import Verif.Spec.Peg

/-!
# Texts in which each kind of node occurs
-/

namespace Sneturfahi.Props

open Spec

mutual
/-- Is there a node of this name? -/
def findName (n : NodeName) : Val → Bool
  | .leaf _ _ => false
  | .node m fs => m == n || findNameL n fs
  | .tuple fs => findNameL n fs
  | .many vs => findNameL n vs
  | .sep first rest => findName n first || findNameL n rest
/-- The same for several values. -/
def findNameL (n : NodeName) : List Val → Bool
  | [] => false
  | v :: vs => findName n v || findNameL n vs
end

mutual
theorem findName_part : ∀ (n : NodeName) (v : Val), findName n v = true → ∃ fs, PartOf (.node n fs) v
  | n, .leaf _ _, h => by simp [findName] at h
  | n, .node m gs, h => by
    simp only [findName, Bool.or_eq_true, beq_iff_eq] at h
    rcases h with rfl | h
    · exact ⟨gs, .self⟩
    · obtain ⟨fs, h⟩ := findNameL_part n gs h
      exact ⟨fs, .node h⟩
  | n, .tuple gs, h => by
    obtain ⟨fs, h⟩ := findNameL_part n gs (by simpa [findName] using h)
    exact ⟨fs, .tuple h⟩
  | n, .many gs, h => by
    obtain ⟨fs, h⟩ := findNameL_part n gs (by simpa [findName] using h)
    exact ⟨fs, .many h⟩
  | n, .sep first rest, h => by
    simp only [findName, Bool.or_eq_true] at h
    rcases h with h | h
    · obtain ⟨fs, h⟩ := findName_part n first h
      exact ⟨fs, .sepFirst h⟩
    · obtain ⟨fs, h⟩ := findNameL_part n rest h
      exact ⟨fs, .sepRest h⟩
theorem findNameL_part : ∀ (n : NodeName) (vs : List Val), findNameL n vs = true → ∃ fs, PartOfL (.node n fs) vs
  | n, [], h => by simp [findNameL] at h
  | n, v :: vs, h => by
    simp only [findNameL, Bool.or_eq_true] at h
    rcases h with h | h
    · obtain ⟨fs, h⟩ := findName_part n v h
      exact ⟨fs, .head h⟩
    · obtain ⟨fs, h⟩ := findNameL_part n vs h
      exact ⟨fs, .tail h⟩
end

/-- Does the tree of these selma'o have nodes of all these names? -/
def hasNodes (x : List Selmaho × List NodeName) : Bool :=
  match tree? (sample x.1) with
  | some v => x.2.all (fun n => findName n v)
  | none => false

theorem hasNodes_part {x : List Selmaho × List NodeName} (h : hasNodes x = true) (n : NodeName) (hn : n ∈ x.2) :
    ∃ root fs, parseCst .debug (sample x.1) = .val (.ok root) ∧ PartOf (.node n fs) root := by
  unfold hasNodes at h
  split at h
  · rename_i v hv
    rw [List.all_eq_true] at h
    obtain ⟨fs, hf⟩ := findName_part n v (h n hn)
    exact ⟨v, fs, tree?_some hv, hf⟩
  · cases h

'''
of={}
for i,(s,ns) in enumerate(cov):
    out+='/-- Text %d. -/\ndef text%d : List Selmaho × List NodeName :=\n  ([%s],\n    [%s])\n\n'%(i,i,', '.join(s),', '.join(ns))
    out+='theorem text%d_ok : hasNodes text%d = true := by decide +kernel\n\n'%(i,i)
    for n in ns: of[n[1:]]=i
out+='/-- All of them. -/\ndef texts : List (List Selmaho × List NodeName) :=\n  [%s]\n\n'%', '.join('text%d'%i for i in range(len(cov)))
out+='theorem texts_ok : ∀ x ∈ texts, hasNodes x = true :=\n'
for i in range(len(cov)): out+='  List.forall_mem_cons.mpr ⟨text%d_ok,\n'%i
out+='  List.forall_mem_nil _'+'⟩'*len(cov)+'\n\n'
out+='/-- The number of the text in which a node occurs. -/\ndef coverIndex : NodeName → Nat\n'
for n in sorted(of): out+='  | .%s => %d\n'%(n,of[n])
out+='  | _ => 0\n\n'
out+="""/-- The text in which a node occurs. -/
def coverOf (n : NodeName) : List Selmaho × List NodeName := (texts[coverIndex n]?).getD text0

theorem coverOf_ok (n : NodeName) : hasNodes (coverOf n) = true := by
  unfold coverOf
  cases h : texts[coverIndex n]? with
  | none => exact text0_ok
  | some x => exact texts_ok x (List.mem_of_getElem? h)

"""
out+='''theorem coverOf_mem (n : NodeName) (h1 : n ≠ .GadriSumtiPre_Relative) (h2 : n ≠ .GadriSumtiPre_FullPre)
    (h3 : ∀ s, n = .word s → wordKind s = .single ∨ wordKind s = .noIndicators) : n ∈ (coverOf n).2 := by
  cases n with
  | word s =>
    have := h3 s rfl
    clear h1 h2 h3
    revert this
    cases s <;> decide
  | GadriSumtiPre_Relative => exact absurd rfl h1
  | GadriSumtiPre_FullPre => exact absurd rfl h2
  | _ => decide

end Sneturfahi.Props
'''
open('/verif/lean/Verif/Proof/CstCover.lean','w').write(out)
