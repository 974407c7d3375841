import Verif.Proof.BlockText
import Verif.Props.Repeat
import Verif.Props.CstShape

/-!
# C98: closed pieces of a text can be exchanged
-/

namespace Sneturfahi.Props

open Spec

theorem noBahe {l : List Token} (h : NotEmphasised l) : Block.NoBahe l := by
  rintro m t rfl
  exact h t (by simp)

/-- **C98.** If in a text a closed piece is exchanged for another one of the same kind, the result is a text, too, and its tree is the
same but for the node of the piece. Indicators, and free modifiers, after the piece remain. -/
theorem C98_tree {r : CRule} {a b : List Token} {f g : List Val → Val} (ha : ClosedPiece r a f) (hb : ClosedPiece r b g) (x y : List Token) (hx : Open x)
    (hy : Open y) (hn : NotEmphasised x) (p : Profile) (i j : Nat) (root : Val) (h : parseCst p ⟨i, x ++ a ++ y⟩ = .val (.ok root)) :
    ∃ root', parseCst p ⟨j, x ++ b ++ y⟩ = .val (.ok root') ∧ Swap (fun v w => ∃ after, v = f after ∧ w = g after) root root' := by
  rw [C66_meaning] at h
  obtain ⟨root', h1, h2⟩ := Block.exchange ha hb (open_clean hx) (open_clean hy) (noBahe hn) h
  exact ⟨root', (C66_meaning p _ root').mpr h1, h2⟩

theorem Exchanged.symm {l m : List Token} (h : Exchanged l m) : Exchanged m l := by
  cases h with
  | mk ha hb hx hy hn => exact .mk hb ha hx hy hn

theorem exchanged_text {l m : List Token} (h : Exchanged l m) (hl : IsText l) : IsText m := by
  cases h with
  | mk ha hb hx hy hn =>
    intro p ptr
    obtain ⟨root, h⟩ := hl p ptr
    obtain ⟨root', h', -⟩ := C98_tree ha hb _ _ hx hy hn p ptr ptr root h
    exact ⟨root', h'⟩

/-- **C98.** What is a text remains one, and what is none does not become one. -/
theorem C98_exchange (l m : List Token) (h : Exchanged l m) : IsText l ↔ IsText m :=
  ⟨exchanged_text h, exchanged_text (Exchanged.symm h)⟩

/-- **C98.** And so with any number of exchanges, one after the other. -/
theorem C98_many (n : Nat) (steps : Nat → List Token) (h : ∀ i < n, Exchanged (steps i) (steps (i + 1))) : IsText (steps 0) ↔ IsText (steps n) := by
  induction n with
  | zero => exact Iff.rfl
  | succ n ih => exact (ih fun i hi => h i (by omega)).trans (C98_exchange _ _ (h n (by omega)))

/-- A text between `lu` and `li'u`. -/
theorem quote_piece {t : List Token} {lu lihu : Token} (h1 : lu.selmaho = .Lu) (h2 : lihu.selmaho = .Lihu) (ht : IsText t) (ho : Open t)
    (hl : ∀ u ∈ t, u.selmaho ≠ .Lu) : ∃ f, ClosedPiece .SumtiComponent1 (lu :: t ++ [lihu]) f := by
  obtain ⟨root, h⟩ := ht .debug 0
  rw [C66_meaning] at h
  refine ⟨_, .bracket lu lihu t .SumtiComponent1 ([.leaf .token lu] ++ [root]) (by rw [h1, h2]; decide) ho (by rw [h1]; simpa [barred] using hl) ?_⟩
  rw [h1]
  exact .seq (Block.word_raw rfl h1 (open_clean ho)) h

/-- **C98.** Any text `t` without quotes can be quoted where a pronoun can stand. -/
theorem C98_quote (t x y : List Token) (k lu lihu : Token) (h1 : lu.selmaho = .Lu) (h2 : lihu.selmaho = .Lihu) (hk : k.selmaho = .Koha) (ht : IsText t)
    (ho : Open t) (hl : ∀ u ∈ t, u.selmaho ≠ .Lu) (hx : Open x) (hy : Open y) (hn : NotEmphasised x) :
    IsText (x ++ [k] ++ y) ↔ IsText (x ++ (lu :: t ++ [lihu]) ++ y) := by
  obtain ⟨f, hf⟩ := quote_piece h1 h2 ht ho hl
  exact C98_exchange _ _ (.mk (.pronoun k hk) hf hx hy hn)

/-! ### Instances -/

/-- All of `l` is read. -/
def readsAll (e : Gr) (l : List Token) : Bool :=
  match evalGr runCst e ⟨0, l⟩ with
  | .val (.ok r _) => r.list.isEmpty
  | _ => false

theorem reads_all {e : Gr} {l : List Token} (h : readsAll e l = true) : ∃ inner, Peg cst e l (.ok [] inner) := by
  have hm := ((means_inv cst).evalGr runCst_means e) ⟨0, l⟩
  unfold readsAll at h
  split at h
  · rename_i r vs he
    rw [he] at hm
    have : r.list = [] := by simpa using h
    refine ⟨vs, ?_⟩
    have hm' : Peg cst e l (.ok r.list vs) := hm
    rwa [this] at hm'
  · cases h

instance (l : List Token) : Decidable (Open l) := inferInstanceAs (Decidable (∀ t ∈ l, t.selmaho ∉ [Selmaho.Zo, .Zoi, .Lohu, .Zei, .Bu]))

/-- Words of the given selma'o. -/
def words (l : List Selmaho) : List Token := l.map (fun s => ⟨false, s, ⟨0, 1⟩⟩)

theorem sample_piece (o c : Selmaho) (s : List Selmaho) (r : CRule) (h1 : (o, c, r) ∈ brackets) (h2 : Open (words s)) (h3 : ∀ x ∈ s, x ∉ barred o)
    (h4 : readsAll (opened o) (words (o :: s)) = true) : ∃ f, ClosedPiece r (words (o :: s ++ [c])) f := by
  obtain ⟨inner, h⟩ := reads_all h4
  have h5 : ∀ t ∈ words s, t.selmaho ∉ barred o := by simpa [words] using h3
  have e : words (o :: s ++ [c]) = ⟨false, o, ⟨0, 1⟩⟩ :: words s ++ [⟨false, c, ⟨0, 1⟩⟩] := by simp [words]
  rw [e]
  exact ⟨_, .bracket ⟨false, o, ⟨0, 1⟩⟩ ⟨false, c, ⟨0, 1⟩⟩ (words s) r inner h1 h2 h5 h⟩

/-- There are pieces of each kind: `lu mi klama li'u`, `li pa su'i pa lo'o`, `lo ba'e barda se klama ku`, `to mi klama .i sutra toi`, `soi mi do se'u`,
`noi mi klama ke'a ku'o`, `pe lo klama ge'u`, `be mi bei do be'o`. -/
theorem C98_pieces :
    (∃ f, ClosedPiece .SumtiComponent1 (words [.Lu, .Koha, .Gismu, .Lihu]) f) ∧
    (∃ f, ClosedPiece .SumtiComponent1 (words [.Li, .Pa, .Vuhu, .Pa, .Loho]) f) ∧
    (∃ f, ClosedPiece .SumtiComponent1 (words [.Le, .Bahe, .Gismu, .Se, .Gismu, .Ku]) f) ∧
    (∃ f, ClosedPiece .Free (words [.To, .Koha, .Gismu, .I, .Gismu, .Toi]) f) ∧
    (∃ f, ClosedPiece .Free (words [.Soi, .Koha, .Koha, .Sehu]) f) ∧
    (∃ f, ClosedPiece .RelativeClause (words [.Noi, .Koha, .Gismu, .Koha, .Kuho]) f) ∧
    (∃ f, ClosedPiece .RelativeClause (words [.Goi, .Le, .Gismu, .Gehu]) f) ∧
    (∃ f, ClosedPiece .BoundArguments (words [.Be, .Koha, .Bei, .Koha, .Beho]) f) := by
  refine ⟨sample_piece .Lu .Lihu [.Koha, .Gismu] _ ?_ ?_ ?_ ?_, sample_piece .Li .Loho [.Pa, .Vuhu, .Pa] _ ?_ ?_ ?_ ?_,
    sample_piece .Le .Ku [.Bahe, .Gismu, .Se, .Gismu] _ ?_ ?_ ?_ ?_, sample_piece .To .Toi [.Koha, .Gismu, .I, .Gismu] _ ?_ ?_ ?_ ?_,
    sample_piece .Soi .Sehu [.Koha, .Koha] _ ?_ ?_ ?_ ?_, sample_piece .Noi .Kuho [.Koha, .Gismu, .Koha] _ ?_ ?_ ?_ ?_,
    sample_piece .Goi .Gehu [.Le, .Gismu] _ ?_ ?_ ?_ ?_, sample_piece .Be .Beho [.Koha, .Bei, .Koha] _ ?_ ?_ ?_ ?_⟩ <;> decide +kernel

/-- `mi viska lo ba'e barda se klama ku .ui .i sutra` is a text because `mi viska do .ui .i sutra` is. -/
example : IsText (words [.Koha, .Gismu] ++ words [.Le, .Bahe, .Gismu, .Se, .Gismu, .Ku] ++ words [.Ui, .I, .Gismu]) := by
  obtain ⟨f, hf⟩ := C98_pieces.2.2.1
  refine (C98_exchange (words [.Koha, .Gismu] ++ words [.Koha] ++ words [.Ui, .I, .Gismu]) _ (.mk (.pronoun _ rfl) hf ?_ ?_ ?_)).mp ?_
  · decide
  · decide
  · intro t ht
    cases ht
    decide
  · decide +kernel

/-- After `ba'e`, before `bu` and after `zo` pieces cannot be exchanged: `ba'e ko'a klama` is a text and `ba'e lu mi klama li'u klama` is not, `zo ko'a klama`
is one and `zo lu mi klama li'u klama` is not. And quotes within a quote must be closed as well: `ga ko'a cu klama gi ko'a` is no text, but
`ga lu lu ko'a klama li'u cu klama gi ko'a` is. -/
theorem C98_conditions :
    (IsText (toks [.Bahe, .Koha, .Gismu]) ∧ ¬ IsText (toks [.Bahe, .Lu, .Koha, .Gismu, .Lihu, .Gismu])) ∧
    (IsText (toks [.Zo, .Koha, .Gismu]) ∧ ¬ IsText (toks [.Zo, .Lu, .Koha, .Gismu, .Lihu, .Gismu])) ∧
    (¬ IsText (toks [.Ga, .Koha, .Cu, .Gismu, .Gi, .Koha]) ∧ IsText (toks [.Ga, .Lu, .Lu, .Koha, .Gismu, .Lihu, .Cu, .Gismu, .Gi, .Koha])) := by
  refine ⟨⟨?_, ?_⟩, ⟨?_, ?_⟩, ⟨?_, ?_⟩⟩ <;> decide +kernel

end Sneturfahi.Props
