import Verif.Proof.CstQuote
import Verif.Proof.CstScene
import Verif.Proof.CstPlace
import Verif.Proof.CstTree
import Verif.Spec.Quotes

/-!
# Quotes in the grammar
-/

namespace Sneturfahi

open Spec

/-! ### Every parse consists of words and quotes -/

def binding : List Selmaho := [.Zei, .Bu]

def bindingRule : CRule → Bool
  | .word s => binding.contains s
  | .ZeiTail => true
  | _ => false

def plainWord (s : Selmaho) : Bool := !unusedB s && ![Selmaho.Zo, .Zoi, .Lohu].contains s

def wordsRule : CRule → Bool
  | .word s => plainWord s
  | .BuInner => false
  | .ZoiDelimiter => false
  | .ZoiText => false
  | _ => true

def quoteRule (r : CRule) : Bool := r == .ZoSumti || r == .ZoiSumti || r == .LohuSumti

theorem cst_binding (r : CRule) (h : bindingRule r = true) : takesG binding bindingRule (cst r) = true := by
  revert h
  cases r with
  | word s => cases s <;> decide +kernel
  | _ => decide +kernel

theorem cst_words (r : CRule) (h : wordsRule r = true) (hz : quoteRule r = false) :
    safeG binding plainWord bindingRule wordsRule (cst r) = true := by
  revert h hz
  cases r with
  | word s => cases s <;> decide +kernel
  | _ => decide +kernel

theorem wordsAndQuotes_piecewise : Piecewise WordsAndQuotes := by
  refine ⟨.nil, ?_⟩
  intro a b ha hb
  induction ha with
  | nil => exact hb
  | word h1 h2 _ ih => exact .word h1 h2 ih
  | zo h1 _ ih => exact .zo h1 ih
  | zoi h1 _ ih => exact .zoi h1 ih
  | @lohu o c q l h1 h2 _ ih =>
    have := WordsAndQuotes.lohu (q := q) h1 h2 ih
    simpa using this

theorem plainWord_single (t : Token) (h : plainWord t.selmaho = true) : WordsAndQuotes [t] := by
  simp only [plainWord, Bool.and_eq_true, Bool.not_eq_true', List.contains_eq_mem, decide_eq_false_iff_not] at h
  refine .word ?_ h.2 .nil
  rw [← unusedB_iff, h.1]
  simp

theorem formed_raw_word {s : Selmaho} {vs : List Val}
    (h : Formed cst (.seq (.raw s) (.seq (.not (.call (.word .Bu))) (.not (.call (.word .Zei))))) vs) :
    ∃ t, vs = [.leaf .token t] ∧ t.selmaho = s := by
  cases h with
  | seq h1 h2 =>
    cases h1 with
    | raw h1 =>
      cases h2 with
      | seq h2 h3 =>
        cases h2
        cases h3
        exact ⟨_, rfl, h1⟩

theorem formed_zo {vs : List Val} (h : Formed cst (cst .ZoSumti) vs) : WordsAndQuotes (tokensL vs) := by
  have hz : cst (.word .Zo) = .seq (.raw .Zo) (.seq (.not (.call (.word .Bu))) (.not (.call (.word .Zei)))) := rfl
  have he : cst .ZoSumti = .wrap (.node .ZoSumti) (.seq (.call (.word .Zo)) (.any .token)) := rfl
  rw [he] at h
  cases h with
  | wrap h =>
    cases h with
    | seq h1 h2 =>
      cases h1 with
      | call h1 =>
        rw [hz] at h1
        obtain ⟨t, rfl, ht⟩ := formed_raw_word h1
        cases h2
        simp only [tokensL, tokens_build, tokens, List.append_nil, List.cons_append, List.nil_append]
        exact .zo ht .nil

theorem formed_zoi' {vs : List Val} (h : Formed cst (cst .ZoiSumti) vs) : WordsAndQuotes (tokensL vs) := by
  have hz : cst (.word .Zoi) = .seq (.raw .Zoi) (.seq (.not (.call (.word .Bu))) (.not (.call (.word .Zei)))) := rfl
  have hd : cst .ZoiDelimiter = .any .zoiDelimiter := rfl
  have ht : cst .ZoiText = .any .zoiText := rfl
  have he : cst .ZoiSumti = .wrap (.node .ZoiSumti) (.seq (.call (.word .Zoi)) (.seq (.call .ZoiDelimiter)
    (.seq (.call .ZoiText) (.call .ZoiDelimiter)))) := rfl
  rw [he] at h
  cases h with
  | wrap h =>
    cases h with
    | seq h1 h =>
      cases h with
      | seq h2 h =>
        cases h with
        | seq h3 h4 =>
          cases h1 with
          | call h1 =>
            rw [hz] at h1
            obtain ⟨t, rfl, hs⟩ := formed_raw_word h1
            cases h2 with
            | call h2 =>
              rw [hd] at h2
              cases h2
              cases h3 with
              | call h3 =>
                rw [ht] at h3
                cases h3
                cases h4 with
                | call h4 =>
                  rw [hd] at h4
                  cases h4
                  simp only [tokensL, tokens_build, tokens, List.append_nil, List.cons_append, List.nil_append]
                  exact .zoi hs .nil

/-- The tokens of a word with its `ba'e` and indicators. -/
theorem formed_single {s : Selmaho} {vs : List Val} (hs : wordKind s = .single)
    (h : Formed cst (.call (.word s)) vs) : ∃ pre t post us, tokensL vs = pre ++ t :: post ∧ t.selmaho = s ∧
      Formed cst (.opt (.call .Indicators)) us ∧ post = tokensL us := by
  cases h with
  | call h =>
    have he : cst (.word s) = wordBody s (wordKind s) := rfl
    rw [he, hs] at h
    cases h with
    | wrap h =>
      cases h with
      | seq h1 h =>
        cases h with
        | seq h2 h =>
          cases h with
          | seq h3 h =>
            cases h with
            | seq h4 h5 =>
              cases h4
              cases h5
              cases h2 with
              | raw ht =>
                rename_i vs1 vs3 t
                refine ⟨tokensL vs1, t, tokensL vs3, vs3, ?_, ht, h3, rfl⟩
                simp only [tokensL, tokens_build, tokensL_append, tokens, List.append_nil, List.cons_append, List.nil_append]

theorem formed_lohu {vs : List Val} (h : Formed cst (cst .LohuSumti) vs)
    (hi : ∀ us, Formed cst (.opt (.call .Indicators)) us → Safe binding WordsAndQuotes (tokensL us)) :
    Safe binding WordsAndQuotes (tokensL vs) := by
  have hz : cst (.word .Lohu) = .seq (.raw .Lohu) (.seq (.not (.call (.word .Bu))) (.not (.call (.word .Zei)))) := rfl
  have he : cst .LohuSumti = .wrap (.node .LohuSumti) (.seq (.call (.word .Lohu)) (.cut (.manyTill (.any .token) (.call (.word .Lehu))))) := rfl
  rw [he] at h
  cases h with
  | wrap h =>
    cases h with
    | seq h1 h2 =>
      cases h1 with
      | call h1 =>
        rw [hz] at h1
        obtain ⟨t, rfl, ht⟩ := formed_raw_word h1
        cases h2 with
        | cut h2 =>
          cases h2 with
          | manyTill h3 h4 =>
            obtain ⟨pre, c, post, us, h5, h6, h7, h8⟩ := formed_single rfl h4
            rcases hi us h7 with ⟨x, hx, hx'⟩ | hw
            · refine .inl ⟨x, ?_, hx'⟩
              simp only [tokensL, tokens_build, tokensL_append, tokens, h5, h8]
              simp [hx]
            · refine .inr ?_
              simp only [tokensL, tokens_build, tokens, h5, h8, List.append_nil, List.cons_append, List.nil_append]
              rw [← List.append_assoc]
              exact .lohu ht h6 hw

def indicatorRule : CRule → Bool
  | .word s => plainWord s
  | .Indicators => true
  | .Indicator => true
  | _ => false

theorem cst_indicator (r : CRule) (h : indicatorRule r = true) :
    safeG binding plainWord bindingRule indicatorRule (cst r) = true := by
  revert h
  cases r with
  | word s => cases s <;> decide +kernel
  | _ => decide +kernel

theorem indicators_words {us : List Val} (h : Formed cst (.opt (.call .Indicators)) us) :
    Safe binding WordsAndQuotes (tokensL us) :=
  formed_safe (base := fun _ => false) wordsAndQuotes_piecewise plainWord_single cst_binding (fun _ _ h => by cases h)
    (fun r h _ => cst_indicator r h) h (by decide)

theorem text_quotes {vs : List Val} (h : Formed cst (.call .Text) vs) : Safe binding WordsAndQuotes (tokensL vs) :=
  formed_safe (base := quoteRule) wordsAndQuotes_piecewise plainWord_single cst_binding
    (fun r vs hr hf => by
      simp only [quoteRule, Bool.or_eq_true, beq_iff_eq] at hr
      rcases hr with (rfl | rfl) | rfl
      · exact .inr (formed_zo hf)
      · exact .inr (formed_zoi' hf)
      · exact formed_lohu hf (fun _ => indicators_words))
    (fun r h h' => cst_words r h h') h (by decide)

/-! ### Where a quote ends -/

theorem peg_total (r : CRule) (s : List Token) : ∃ o, Peg cst (.call r) s o := by
  obtain ⟨res, h⟩ := runCst_ends r ⟨0, s⟩
  have := runCst_means r ⟨0, s⟩
  rw [h] at this
  exact ⟨_, this⟩

/-- Nothing is committed. -/
def mildG (tab : CRule → Bool) : Gr → Bool
  | .eps => true
  | .raw _ => true
  | .any _ => true
  | .call r => tab r
  | .seq a b => mildG tab a && mildG tab b
  | .alt a b => mildG tab a && mildG tab b
  | .opt a => mildG tab a
  | .many0 a => mildG tab a
  | .many1 a => mildG tab a
  | .manyTill a b => mildG tab a && mildG tab b
  | .not a => mildG tab a
  | .cut _ => false
  | .mustConsume _ a => mildG tab a
  | .postCond _ a => mildG tab a
  | .wrap _ a => mildG tab a

theorem peg_mild {g : CRule → Gr} {tab : CRule → Bool} (hg : ∀ r, tab r = true → mildG tab (g r) = true) {e : Gr} {s : List Token}
    {o : Outcome} (h : Peg g e s o) : mildG tab e = true → o ≠ .failure := by
  induction h with
  | call _ ih => intro h; exact ih (hg _ h)
  | _ => simp only [mildG, Bool.and_eq_true] at *; grind

def wordish : CRule → Bool
  | .word _ => true
  | .Indicators => true
  | .Indicator => true
  | _ => false

theorem cst_mild (r : CRule) (h : wordish r = true) : mildG wordish (cst r) = true := by
  revert h
  cases r with
  | word s => cases s <;> decide +kernel
  | _ => decide +kernel

theorem word_mild {s : Selmaho} {l : List Token} {o : Outcome} (h : Peg cst (.call (.word s)) l o) : o ≠ .failure :=
  peg_mild cst_mild h rfl

theorem peg_seq_ok {a b : Gr} {l r : List Token} {vs : List Val} (h : Peg cst (.seq a b) l (.ok r vs)) :
    ∃ q us ws, Peg cst a l (.ok q us) ∧ Peg cst b q (.ok r ws) ∧ vs = us ++ ws := by
  cases h with
  | seq h1 h2 => exact ⟨_, _, _, h1, h2, rfl⟩
  | seqFirst _ hb => exact hb.elim
  | seqSecond _ _ hb => exact hb.elim

theorem peg_wrap_ok {sh : CShape} {a : Gr} {l r : List Token} {vs : List Val} (h : Peg cst (.wrap sh a) l (.ok r vs)) :
    ∃ us, Peg cst a l (.ok r us) ∧ vs = [sh.build us] := by
  cases h with
  | wrap h1 => exact ⟨_, h1, rfl⟩
  | wrapBad _ hb => exact hb.elim

theorem peg_not_ok {a : Gr} {l r : List Token} {vs : List Val} (h : Peg cst (.not a) l (.ok r vs)) :
    Peg cst a l .error ∧ r = l ∧ vs = [] := by
  cases h with
  | not h1 => exact ⟨h1, rfl, rfl⟩

theorem peg_raw_ok {s : Selmaho} {l r : List Token} {vs : List Val} (h : Peg cst (.raw s) l (.ok r vs)) :
    ∃ t, l = t :: r ∧ t.selmaho = s ∧ vs = [.leaf .token t] := by
  cases h with
  | raw h => exact ⟨_, rfl, h, rfl⟩

theorem peg_bahes {e : Gr} {l : List Token} {o : Outcome} (h : Peg cst e l o) : e = .many0 (.call (.word .Bahe)) →
    ∀ r vs, o = .ok r vs → ∃ bs : List Token, l = bs ++ r ∧ ∀ b ∈ bs, b.selmaho = .Bahe := by
  induction h with
  | many0End _ _ => intro _ r vs h; cases h; exact ⟨[], rfl, nofun⟩
  | many0More h1 _ _ _ ih =>
    intro he r' vs' ho
    cases he
    cases ho
    obtain ⟨bs, h2, h3⟩ := ih rfl _ _ rfl
    cases h1 with
    | call h1 =>
      have hz : cst (.word .Bahe) = .seq (.raw .Bahe) (.seq (.not (.call (.word .Bu))) (.not (.call (.word .Zei)))) := rfl
      rw [hz] at h1
      obtain ⟨q, us, ws, h1, h4, _⟩ := peg_seq_ok h1
      obtain ⟨t, rfl, ht, _⟩ := peg_raw_ok h1
      obtain ⟨q', us', ws', h4, h5, _⟩ := peg_seq_ok h4
      obtain ⟨_, rfl, _⟩ := peg_not_ok h4
      obtain ⟨_, rfl, _⟩ := peg_not_ok h5
      refine ⟨t :: bs, by rw [h2]; rfl, ?_⟩
      intro b hb
      rcases List.mem_cons.mp hb with rfl | hb
      · exact ht
      · exact h3 b hb
  | many0Later _ _ _ hb _ _ => intro _ r vs ho; subst ho; exact hb.elim
  | many0Failure _ _ => intro _ r vs ho; cases ho
  | many0Stuck _ _ _ => intro _ r vs ho; cases ho
  | _ => intro he; cases he

/-- A word of selma'o `s` begins with any number of `ba'e`, then comes a token of selma'o `s`. -/
theorem word_ok {s : Selmaho} {l r : List Token} {vs : List Val} (hs : wordKind s = .single ∨ wordKind s = .noIndicators)
    (h : Peg cst (.call (.word s)) l (.ok r vs)) :
    ∃ bs t q, l = bs ++ t :: q ∧ (∀ b ∈ bs, b.selmaho = .Bahe) ∧ t.selmaho = s := by
  cases h with
  | call h =>
    have he : cst (.word s) = wordBody s (wordKind s) := rfl
    rw [he] at h
    rcases hs with hs | hs <;>
    · rw [hs] at h
      obtain ⟨us, h, _⟩ := peg_wrap_ok h
      obtain ⟨q1, _, _, h1, h, _⟩ := peg_seq_ok h
      obtain ⟨q2, _, _, h2, h, _⟩ := peg_seq_ok h
      obtain ⟨bs, h3, h4⟩ := peg_bahes h1 rfl _ _ rfl
      obtain ⟨t, h5, h6, _⟩ := peg_raw_ok h2
      exact ⟨bs, t, _, by rw [h3, h5], h4, h6⟩

theorem word_error {s : Selmaho} {l : List Token} (hs : wordKind s = .single ∨ wordKind s = .noIndicators)
    (h : ¬ ∃ bs t q, l = bs ++ t :: q ∧ (∀ b ∈ bs, b.selmaho = .Bahe) ∧ t.selmaho = s) : Peg cst (.call (.word s)) l .error := by
  obtain ⟨o, ho⟩ := peg_total (.word s) l
  cases o with
  | error => exact ho
  | failure => exact absurd rfl (word_mild ho)
  | ok r vs => exact absurd (word_ok hs ho) h

theorem bu_error {l : List Token} (h : ∀ t q, l = t :: q → t.selmaho ≠ .Bu) : Peg cst (.call (.word .Bu)) l .error := by
  have he : cst (.word .Bu) = .raw .Bu := rfl
  refine .call ?_
  rw [he]
  cases l with
  | nil => exact .rawEnd
  | cons t q => exact .rawOther (h t q rfl)

/-- A word not followed by `bu` or `zei`, nor an indicator, and without `ba'e`. -/
theorem word_here {s : Selmaho} {t : Token} {l : List Token} (hs : wordKind s = .single) (hb : s ≠ .Bahe) (ht : t.selmaho = s)
    (hl : ∀ x ∈ l, x.selmaho ≠ .Bu ∧ x.selmaho ≠ .Zei) :
    ∃ r vs, Peg cst (.call (.word s)) (t :: l) (.ok r vs) ∧ ∃ w, l = w ++ r := by
  have he : cst (.word s) = wordBody s (wordKind s) := rfl
  have hz : cst (.word .Bahe) = .seq (.raw .Bahe) (.seq (.not (.call (.word .Bu))) (.not (.call (.word .Zei)))) := rfl
  have h1 : Peg cst (.many0 (.call (.word .Bahe))) (t :: l) (.ok (t :: l) [.many []]) := by
    refine .many0End (.call ?_)
    rw [hz]
    exact .seqFirst (.rawOther (by rw [ht]; exact hb)) trivial
  have h2 : ∃ r vs, Peg cst (.opt (.call .Indicators)) l (.ok r vs) ∧ ∃ w, l = w ++ r := by
    obtain ⟨o, ho⟩ := peg_total .Indicators l
    cases o with
    | error => exact ⟨_, _, .optAbsent ho, [], rfl⟩
    | failure => exact absurd rfl (peg_mild cst_mild ho rfl)
    | ok r vs => exact ⟨_, _, .optPresent ho, _, ho.cuts _ _ rfl⟩
  obtain ⟨r, vs, h2, w, rfl⟩ := h2
  have h3 : Peg cst (.call (.word .Bu)) r .error := bu_error (by rintro t q rfl; exact (hl t (by simp)).1)
  have h4 : Peg cst (.call (.word .Zei)) r .error := word_error (.inr rfl) (by
    rintro ⟨bs, x, q, rfl, _, hx⟩
    exact (hl x (by simp)).2 hx)
  have h5 : cst (.word s) = wordBody s .single := by rw [he, hs]
  have h6 := Peg.wrap (sh := .node (.word s)) (Peg.seq h1 (.seq (.raw ht) (.seq h2 (.seq (.not h3) (.not h4)))))
  have h7 : ∀ o, Peg cst (wordBody s .single) (t :: (w ++ r)) o → Peg cst (.call (.word s)) (t :: (w ++ r)) o := by
    intro o ho
    rw [← h5] at ho
    exact .call ho
  exact ⟨_, _, h7 _ h6, _, rfl⟩

/-- What comes before the end of a quote, and that the quote could not have ended before. -/
theorem peg_till {e : Gr} {l : List Token} {o : Outcome} (h : Peg cst e l o) {b : Gr} : e = .manyTill (.any .token) b →
    ∀ r vs, o = .ok r vs → ∃ (toks rest : List Token) (ws : List Val), vs = .many (toks.map (.leaf .token)) :: ws ∧ l = toks ++ rest ∧
      Peg cst b rest (.ok r ws) ∧ ∀ pre t post, toks = pre ++ t :: post → Peg cst b (t :: (post ++ rest)) .error := by
  induction h with
  | tillEnd h _ =>
    intro he r vs ho
    cases he
    cases ho
    exact ⟨[], _, _, rfl, rfl, h, by intro pre t post h; simp at h⟩
  | tillMore h1 h2 _ _ _ _ ih =>
    intro he r vs ho
    cases he
    cases ho
    cases h2 with
    | @any _ t s =>
      obtain ⟨toks, rest, ws, h3, h4, h5, h6⟩ := ih rfl _ _ rfl
      cases h3
      refine ⟨t :: toks, rest, _, rfl, by rw [h4]; rfl, h5, ?_⟩
      intro pre t' post hp
      cases pre with
      | nil =>
        simp only [List.nil_append, List.cons.injEq] at hp
        obtain ⟨rfl, rfl⟩ := hp
        rw [← h4]
        exact h1
      | cons x pre =>
        simp only [List.cons_append, List.cons.injEq] at hp
        exact h6 pre t' post hp.2
  | tillFailure _ _ => intro _ r vs ho; cases ho
  | tillItem _ _ hb _ _ => intro _ r vs ho; subst ho; exact hb.elim
  | tillStuck _ _ _ _ _ => intro _ r vs ho; cases ho
  | tillLater _ _ _ _ hb _ _ _ => intro _ r vs ho; subst ho; exact hb.elim
  | _ => intro he; cases he

theorem peg_till_intro {b : Gr} {rest r : List Token} {ws : List Val} (hr : Peg cst b rest (.ok r ws)) (toks : List Token)
    (h : ∀ pre t post, toks = pre ++ t :: post → Peg cst b (t :: (post ++ rest)) .error) :
    Peg cst (.manyTill (.any .token) b) (toks ++ rest) (.ok r (.many (toks.map (.leaf .token)) :: ws)) := by
  induction toks with
  | nil => exact .tillEnd hr
  | cons t toks ih =>
    have h1 := ih (fun pre x post hp => h (t :: pre) x post (by rw [hp]; rfl))
    exact .tillMore (h [] t toks rfl) .any (by simp) h1

theorem peg_till_error {b : Gr} (toks : List Token) (h : ∀ pre post, toks = pre ++ post → Peg cst b post .error) :
    Peg cst (.manyTill (.any .token) b) toks .error := by
  induction toks with
  | nil => exact .tillItem (h [] [] rfl) .anyEnd trivial
  | cons t toks ih =>
    have h1 := ih (fun pre post hp => h (t :: pre) post (by rw [hp]; rfl))
    exact .tillLater (h [] _ rfl) .any (by simp) h1 trivial

/-! ### Patterns as texts -/

/-- The result of one production at the start is known. -/
def known (r0 : CRule) (ws : List Way) : CRule → Nat → Option (List Way) :=
  fun r i => if r = r0 ∧ i = 0 then some ws else none

theorem known_right (whole : List Token) (w : List Cls) (tail : Option (List Selmaho)) (name : NodeName) (fields : List Val)
    (r0 : CRule) (ws : List Way) (o0 : Outcome) (hp : Peg cst (.call r0) whole o0)
    (hg : GoesBy (patternScene whole w tail (known r0 ws) name fields) 0 whole ws o0) :
    (patternScene whole w tail (known r0 ws) name fields).Right := by
  refine patternScene_right _ _ _ _ _ _ ?_
  intro r i s o ws' ho hi hr
  unfold known at ho
  split at ho
  · rename_i h
    obtain ⟨rfl, rfl⟩ := h
    cases ho
    have hs : s = whole := by
      rcases hi with ⟨_, hi, _⟩ | ⟨hi, _⟩
      · exact hi
      · omega
    subst hs
    cases hp.unique _ hr
    exact hg
  · cases ho

/-- If a pattern surely leads to the end with the node made, the sequence parses, and the node is in the tree. -/
theorem scan_parses (S : Scene) (hS : S.Right) (fuel j : Nat) (p : Profile) (ptr : Nat) (l : List Token) (h0 : S.sat 0 l)
    (hs : scan S.steps fuel .Text 0 = [.ok j true]) (hj : ∀ r, S.sat j r → r = []) :
    ∃ root, parseCst p ⟨ptr, l⟩ = .val (.ok root) ∧ PartOf (.node S.name S.fields) root := by
  obtain ⟨res, h1, h2⟩ := parseCst_eq p ⟨ptr, l⟩
  have hm := runCst_means .Text ⟨ptr, l⟩
  rw [h1] at hm
  obtain ⟨w, hw, hg⟩ := scan_sound S hS fuel .Text 0 l _ h0 hm
  rw [hs] at hw
  simp only [List.mem_singleton] at hw
  subst hw
  cases res with
  | error e => exact hg.elim
  | failure e => exact hg.elim
  | ok r vs =>
    obtain ⟨q, rl⟩ := r
    obtain ⟨h3, _, _, _, h4⟩ := hg
    cases hj _ h3
    have hc := runCst_conforms .Text ⟨ptr, l⟩
    rw [h1] at hc
    obtain ⟨v, rfl⟩ := derives_one (hc _ _ rfl).1
    refine ⟨v, h2, ?_⟩
    have := h4 rfl
    cases this with
    | head h => exact h
    | tail h => cases h

/-- If a pattern surely leads to failure, parsing fails before any token is left over. -/
theorem scan_fails (S : Scene) (hS : S.Right) (fuel : Nat) (ptr : Nat) (l : List Token) (h0 : S.sat 0 l)
    (hs : scan S.steps fuel .Text 0 = [.failure]) : ∃ e, runCst .Text ⟨ptr, l⟩ = .val (.failure e) := by
  obtain ⟨res, h1⟩ := runCst_ends .Text ⟨ptr, l⟩
  have hm := runCst_means .Text ⟨ptr, l⟩
  rw [h1] at hm
  obtain ⟨w, hw, hg⟩ := scan_sound S hS fuel .Text 0 l _ h0 hm
  rw [hs] at hw
  simp only [List.mem_singleton] at hw
  subst hw
  cases res with
  | error e => exact hg.elim
  | ok _ _ => exact hg.elim
  | failure e => exact ⟨e, h1⟩

/-! ### Nodes made by one production only -/

/-- This construct makes no node `n` itself. -/
def lacksG (n : NodeName) : Gr → Bool
  | .eps => true
  | .raw _ => true
  | .any _ => true
  | .call _ => true
  | .seq a b => lacksG n a && lacksG n b
  | .alt a b => lacksG n a && lacksG n b
  | .opt a => lacksG n a
  | .many0 a => lacksG n a
  | .many1 a => lacksG n a
  | .manyTill a b => lacksG n a && lacksG n b
  | .not _ => true
  | .cut a => lacksG n a
  | .mustConsume _ a => lacksG n a
  | .postCond _ a => lacksG n a
  | .wrap (.node m) a => m != n && lacksG n a
  | .wrap _ a => lacksG n a

theorem partOfL_append {v : Val} {vs ws : List Val} (h : PartOfL v (vs ++ ws)) : PartOfL v vs ∨ PartOfL v ws := by
  induction vs with
  | nil => exact .inr h
  | cons x vs ih =>
    cases h with
    | head h => exact .inl (.head h)
    | tail h => exact (ih h).imp .tail id

theorem partOfL_many {n : NodeName} {fs vs : List Val} (h : PartOfL (.node n fs) [.many vs]) : PartOfL (.node n fs) vs := by
  cases h with
  | head h => cases h with | many h => exact h
  | tail h => cases h

theorem partOfL_flatten {v : Val} {items : List (List Val)} (h : PartOfL v items.flatten) : ∃ vs ∈ items, PartOfL v vs := by
  induction items with
  | nil => cases h
  | cons x items ih =>
    rw [List.flatten_cons] at h
    rcases partOfL_append h with h | h
    · exact ⟨x, by simp, h⟩
    · obtain ⟨vs, h1, h2⟩ := ih h
      exact ⟨vs, by simp [h1], h2⟩

/-- A node made only by `r0` comes from there. -/
theorem formed_only {g : CRule → Gr} {n : NodeName} {r0 : CRule} (hg : ∀ r, r ≠ r0 → lacksG n (g r) = true) {e : Gr} {vs : List Val}
    (h : Formed g e vs) : lacksG n e = true → ∀ fs, PartOfL (.node n fs) vs → ∃ us, Formed g (g r0) us ∧ PartOfL (.node n fs) us := by
  induction h with
  | eps => intro _ fs h; cases h
  | raw _ => intro _ fs h; cases h with | head h => cases h | tail h => cases h
  | any => intro _ fs h; cases h with | head h => cases h | tail h => cases h
  | @call r vs h ih =>
    intro _ fs hp
    by_cases hr : r = r0
    · subst hr; exact ⟨_, h, hp⟩
    · exact ih (hg r hr) fs hp
  | seq _ _ iha ihb =>
    intro hl fs hp
    simp only [lacksG, Bool.and_eq_true] at hl
    rcases partOfL_append hp with hp | hp
    · exact iha hl.1 fs hp
    · exact ihb hl.2 fs hp
  | altLeft _ ih => intro hl; simp only [lacksG, Bool.and_eq_true] at hl; exact ih hl.1
  | altRight _ ih => intro hl; simp only [lacksG, Bool.and_eq_true] at hl; exact ih hl.2
  | absent => intro _ fs h; cases partOfL_many h
  | present _ ih => intro hl fs h; exact ih hl fs (partOfL_many h)
  | many0 _ ih =>
    intro hl fs h
    obtain ⟨vs, h1, h2⟩ := partOfL_flatten (partOfL_many h)
    exact ih vs h1 hl fs h2
  | many1 _ _ ih =>
    intro hl fs h
    obtain ⟨vs, h1, h2⟩ := partOfL_flatten (partOfL_many h)
    exact ih vs h1 hl fs h2
  | @manyTill a stop items ws _ _ ih1 ih2 =>
    intro hl fs h
    simp only [lacksG, Bool.and_eq_true] at hl
    rcases partOfL_append (vs := [.many items.flatten]) (ws := ws) h with h | h
    · obtain ⟨vs, h1, h2⟩ := partOfL_flatten (partOfL_many h)
      exact ih1 vs h1 hl.1 fs h2
    · exact ih2 hl.2 fs h
  | not => intro _ fs h; cases h
  | cut _ ih => intro hl; exact ih hl
  | mustConsume _ _ ih => intro hl; exact ih hl
  | postCond _ _ ih => intro hl; exact ih hl
  | @wrap sh a vs _ ih =>
    intro hl fs h
    cases h with
    | tail h => cases h
    | head h =>
      cases sh with
      | node m =>
        simp only [lacksG, Bool.and_eq_true, bne_iff_ne] at hl
        simp only [CShape.build] at h
        cases h with
        | self => exact absurd rfl hl.1
        | node h => exact ih hl.2 fs h
      | tuple =>
        simp only [CShape.build] at h
        cases h with
        | tuple h => exact ih hl fs h
      | sep =>
        refine ih hl fs ?_
        unfold CShape.build at h
        split at h
        · contradiction
        · contradiction
        · cases h with
          | sepFirst h => exact .head h
          | sepRest h => exact .tail (.head (.many h))
        · cases h with
          | tuple h => exact h

end Sneturfahi
