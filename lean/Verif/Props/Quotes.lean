import Verif.Proof.CstQuotes
import Verif.Props.CstShape

/-!
# C69, C70: quotes and letters
-/

namespace Sneturfahi.Props

open Spec

/-! ### C69: quotes -/

/-- **C69, division.** A token sequence that parses, without `bu` and `zei`, consists of usable words and quotes: `zo` and one
token, `zoi` and three, `lo'u` and all up to a `le'u`. -/
theorem C69_division (p : Profile) (s : Toks) (root : Val) (h : parseCst p s = .val (.ok root))
    (hn : ∀ t ∈ s.list, t.selmaho ≠ .Bu ∧ t.selmaho ≠ .Zei) : WordsAndQuotes s.list := by
  have h1 := text_quotes (formed_root h)
  simp only [tokensL, List.append_nil] at h1
  rw [C46_tokens p s root h] at h1
  rcases h1 with ⟨t, h2, h3⟩ | h1
  · have := hn t h2
    simp only [binding, List.mem_cons, List.not_mem_nil, or_false] at h3
    rcases h3 with h3 | h3
    · exact absurd h3 this.2
    · exact absurd h3 this.1
  · exact h1

/-- **C69, the first `le'u`.** In the tree of such a sequence a `lo'u` quote holds the tokens up to the first `le'u`: there
is none among them. -/
theorem C69_first_lehu (p : Profile) (s : Toks) (root : Val) (h : parseCst p s = .val (.ok root))
    (hn : ∀ t ∈ s.list, t.selmaho ≠ .Bu ∧ t.selmaho ≠ .Zei) (fs : List Val) (hq : PartOf (.node .LohuSumti fs) root) :
    ∃ (o : Token) (q : List Token) (c : Val), fs = [.leaf .token o, .many (q.map (.leaf .token)), c] ∧ o.selmaho = .Lohu ∧
      ∀ t ∈ q, t.selmaho ≠ .Lehu := by
  obtain ⟨pre, hp⟩ := hq.at
  obtain ⟨a, here, post, hg, hl, hm⟩ := peg_placed cst_made ((C66_meaning p s root).mp h) _ _ rfl (by decide) pre _ fs (.head hp)
  have ha : a = .seq (.call (.word .Lohu)) (.cut (.manyTill (.any .token) (.call (.word .Lehu)))) := by
    have hb : bodyIn .LohuSumti (cst (home .LohuSumti)) =
      some (.seq (.call (.word .Lohu)) (.cut (.manyTill (.any .token) (.call (.word .Lehu))))) := by decide +kernel
    unfold goodNode at hg
    rw [hb, show genericNodes.contains .LohuSumti = false by decide] at hg
    simp only [Bool.false_or, Bool.and_eq_true, decide_eq_true_eq, Option.some.injEq] at hg
    exact hg.2.symm
  subst ha
  obtain ⟨us0, hm, hfs⟩ := peg_wrap_ok hm
  simp only [CShape.build, List.cons.injEq, Val.node.injEq, true_and, and_true] at hfs
  subst hfs
  obtain ⟨q1, us, ws, h1, h2, rfl⟩ := peg_seq_ok hm
  have hz : cst (.word .Lohu) = .seq (.raw .Lohu) (.seq (.not (.call (.word .Bu))) (.not (.call (.word .Zei)))) := rfl
  cases h1 with
  | call h1 =>
    rw [hz] at h1
    obtain ⟨q2, us1, us2, h1', h3, rfl⟩ := peg_seq_ok h1
    obtain ⟨o, h4, ho, rfl⟩ := peg_raw_ok h1'
    obtain ⟨q3, us3, us4, h3', h5, rfl⟩ := peg_seq_ok h3
    obtain ⟨_, rfl, rfl⟩ := peg_not_ok h3'
    obtain ⟨_, rfl, rfl⟩ := peg_not_ok h5
    cases h2 with
    | cut h2 hne =>
      obtain ⟨toks, rest, cs, h6', h6, h7, h8⟩ := peg_till h2 rfl _ _ rfl
      subst h6'
      have hc : ∃ c, cs = [c] := by
        cases h7 with
        | call h7 =>
          have he : cst (.word .Lehu) = wordBody .Lehu .single := rfl
          rw [he] at h7
          obtain ⟨_, _, h9⟩ := peg_wrap_ok h7
          exact ⟨_, h9⟩
      obtain ⟨c, rfl⟩ := hc
      refine ⟨o, toks, c, rfl, ho, ?_⟩
      intro t ht htl
      obtain ⟨x, y, rfl⟩ := List.append_of_mem ht
      have h9 := h8 x t y rfl
      obtain ⟨r, vs, h10, _⟩ := word_here (s := .Lehu) (t := t) (l := y ++ rest) rfl (by decide) htl (by
        intro z hz
        apply hn z
        rw [hl, h4, h6]
        simp only [List.mem_append, List.mem_cons] at hz ⊢
        rcases hz with hz | hz <;> simp [hz])
      cases h9.unique _ h10

/-- `zo`, `zoi` and `lo'u` at the start of a sequence. -/
theorem raw_here {s : Selmaho} {z : Token} {l : List Token} (hs : wordKind s = .raw) (hz : z.selmaho = s)
    (hl : NotBound l) : Peg cst (.call (.word s)) (z :: l) (.ok l [.leaf .token z]) := by
  have he : cst (.word s) = .seq (.raw s) (.seq (.not (.call (.word .Bu))) (.not (.call (.word .Zei)))) := by
    show wordBody s (wordKind s) = _
    rw [hs]; rfl
  refine .call ?_
  rw [he]
  have h1 : Peg cst (.call (.word .Bu)) l .error := bu_error (by
    rintro t q rfl
    exact (hl [] t q rfl nofun).1)
  have h2 : Peg cst (.call (.word .Zei)) l .error := word_error (.inr rfl) (by
    rintro ⟨bs, t, q, rfl, hb, ht⟩
    exact (hl bs t q rfl hb).2 ht)
  exact .seq (.raw hz) (.seq (.not h1) (.not h2))

theorem zei_here {t : Token} {l : List Token} (ht : t.selmaho = .Zei) (hl : NotBound l) :
    ∃ r vs, Peg cst (.call (.word .Zei)) (t :: l) (.ok r vs) := by
  have h5 : cst (.word .Zei) = wordBody .Zei .noIndicators := rfl
  have hz : cst (.word .Bahe) = .seq (.raw .Bahe) (.seq (.not (.call (.word .Bu))) (.not (.call (.word .Zei)))) := rfl
  have h0 : Peg cst (.many0 (.call (.word .Bahe))) (t :: l) (.ok (t :: l) [.many []]) := by
    refine .many0End (.call ?_)
    rw [hz]
    exact .seqFirst (.rawOther (by rw [ht]; decide)) trivial
  have h1 : Peg cst (.call (.word .Bu)) l .error := bu_error (by
    rintro t q rfl
    exact (hl [] t q rfl nofun).1)
  have h2 : Peg cst (.call (.word .Zei)) l .error := word_error (.inr rfl) (by
    rintro ⟨bs, t, q, rfl, hb, ht⟩
    exact (hl bs t q rfl hb).2 ht)
  have h6 := Peg.wrap (sh := .node (.word .Zei)) (Peg.seq h0 (.seq (.raw ht) (.seq (.not h1) (.not h2))))
  have h7 : ∀ o, Peg cst (wordBody .Zei .noIndicators) (t :: l) o → Peg cst (.call (.word .Zei)) (t :: l) o := by
    intro o ho
    rw [← h5] at ho
    exact .call ho
  exact ⟨_, _, h7 _ h6⟩

/-- **C69, `zo`.** Any token but `bu` and `zei` is quoted by `zo`. -/
theorem C69_zo (p : Profile) (ptr : Nat) (z x : Token) (hz : z.selmaho = .Zo) (hx : x.selmaho ≠ .Bu) (hx' : x.selmaho ≠ .Zei) :
    ∃ root, parseCst p ⟨ptr, [z, x]⟩ = .val (.ok root) ∧ PartOf (.node .ZoSumti [.leaf .token z, .leaf .token x]) root := by
  have hn : NotBound [x] := by
    intro bs t rest h _
    cases bs with
    | nil => cases h; exact ⟨hx, hx'⟩
    | cons b bs => simp at h
  have hp : Peg cst (.call .ZoSumti) [z, x] (.ok [] [.node .ZoSumti [.leaf .token z, .leaf .token x]]) := by
    have he : cst .ZoSumti = .wrap (.node .ZoSumti) (.seq (.call (.word .Zo)) (.any .token)) := rfl
    refine .call ?_
    rw [he]
    exact .wrap (.seq (raw_here rfl hz hn) .any)
  refine scan_parses (patternScene [z, x] [.only [.Zo], .except [.Bu, .Zei]] none (known .ZoSumti [.ok 2 true]) .ZoSumti
    [.leaf .token z, .leaf .token x]) ?_ 100 2 p ptr _ ?_ (show scan (patternSteps _ _ _) _ _ _ = _ by decide +kernel) ?_
  · exact known_right _ _ _ _ _ _ _ _ hp ⟨.ok 2 true, by simp, .inl ⟨by simp, by simp, by simp [FitsPattern]⟩, by simp, by simp, by simp,
      fun _ => .head .self⟩
  · exact .inl ⟨by simp, rfl, _, _, rfl, by simp [Cls.has, hz], _, _, rfl, by simp [Cls.has, hx, hx'], rfl⟩
  · rintro r (⟨_, _, hr⟩ | ⟨_, hr⟩)
    · exact hr
    · exact hr

/-- **C69, `lo'u`.** Any tokens but `le'u` are quoted by `lo'u` .. `le'u` (provided that `bu` or `zei` do not come first,
and `ba'e` not last: it would belong to `le'u`). -/
theorem C69_lohu (p : Profile) (ptr : Nat) (o c : Token) (q : List Token) (ho : o.selmaho = .Lohu) (hc : c.selmaho = .Lehu)
    (hq : ∀ t ∈ q, t.selmaho ≠ .Lehu) (hb : NotBound (q ++ [c])) (hl : ∀ t, q.getLast? = some t → t.selmaho ≠ .Bahe) :
    ∃ root, parseCst p ⟨ptr, o :: (q ++ [c])⟩ = .val (.ok root) ∧
      ∃ w, PartOf (.node .LohuSumti [.leaf .token o, .many (q.map (.leaf .token)), w]) root := by
  obtain ⟨r, ws, hw, hww⟩ := word_here (s := .Lehu) (t := c) (l := []) rfl (by decide) hc nofun
  have hr : r = [] ∧ ∃ w, ws = [w] := by
    refine ⟨?_, ?_⟩
    · obtain ⟨w, h1⟩ := hww
      exact (List.append_eq_nil_iff.mp h1.symm).2
    · cases hw with
      | call h =>
        have he : cst (.word .Lehu) = wordBody .Lehu .single := rfl
        rw [he] at h
        obtain ⟨_, _, h9⟩ := peg_wrap_ok h
        exact ⟨_, h9⟩
  obtain ⟨rfl, w, rfl⟩ := hr
  have ht : Peg cst (.manyTill (.any .token) (.call (.word .Lehu))) (q ++ [c]) (.ok [] [.many (q.map (.leaf .token)), w]) := by
    refine peg_till_intro hw q ?_
    intro pre t post hp
    refine word_error (.inl rfl) ?_
    rintro ⟨bs, x, q', h1, h2, h3⟩
    have hbad : ¬ ∀ b ∈ t :: post, b.selmaho = .Bahe := by
      intro hall
      have hne : (t :: post) ≠ [] := by simp
      refine hl ((t :: post).getLast hne) ?_ (hall _ (List.getLast_mem hne))
      rw [hp, List.getLast?_append, List.getLast?_eq_some_getLast hne]
      rfl
    have h1' : (t :: post) ++ [c] = bs ++ x :: q' := h1
    rcases List.append_eq_append_iff.mp h1' with ⟨a, h4, h5⟩ | ⟨a, h4, h5⟩
    · refine hbad (fun b hb => h2 b ?_)
      rw [h4]
      exact List.mem_append_left _ hb
    · cases a with
      | nil =>
        simp only [List.append_nil] at h4
        exact hbad (fun b hb => h2 b (h4 ▸ hb))
      | cons y a =>
        simp only [List.cons_append, List.cons.injEq] at h5
        refine hq x ?_ h3
        rw [hp, h4, h5.1]
        simp
  have hp : Peg cst (.call .LohuSumti) (o :: (q ++ [c])) (.ok [] [.node .LohuSumti [.leaf .token o, .many (q.map (.leaf .token)), w]]) := by
    have he : cst .LohuSumti = .wrap (.node .LohuSumti) (.seq (.call (.word .Lohu)) (.cut (.manyTill (.any .token) (.call (.word .Lehu))))) := rfl
    refine .call ?_
    rw [he]
    exact .wrap (.seq (raw_here rfl ho hb) (.cut ht nofun))
  have := scan_parses (patternScene (o :: (q ++ [c])) [.only [.Lohu], .except [.Bu, .Zei]] (some []) (known .LohuSumti [.ok 3 true]) .LohuSumti
    [.leaf .token o, .many (q.map (.leaf .token)), w]) ?_ 100 3 p ptr (o :: (q ++ [c])) ?_ (show scan (patternSteps _ _ _) _ _ _ = _ by decide +kernel) ?_
  · obtain ⟨root, h1, h2⟩ := this
    exact ⟨root, h1, w, h2⟩
  · exact known_right _ _ _ _ _ _ _ _ hp ⟨.ok 3 true, by simp, .inr ⟨by simp, rfl⟩, by simp, by simp, by simp, fun _ => .head .self⟩
  · refine .inl ⟨by simp, rfl, _, _, rfl, by simp [Cls.has, ho], ?_⟩
    cases q with
    | nil =>
      refine ⟨c, [], rfl, ?_, by simp [FitsPattern]⟩
      have := hb [] c [] rfl nofun
      simp [Cls.has, this]
    | cons x q =>
      refine ⟨x, q ++ [c], rfl, ?_, by simp [FitsPattern]⟩
      have := hb [] x _ rfl nofun
      simp [Cls.has, this]
  · rintro r (⟨h, _, hr⟩ | ⟨_, hr⟩)
    · simp at h
    · exact hr

/-- **C69, no `le'u`.** Without a `le'u` there is no parse, and (if there is no `tei` or `ga'o`, which also ask for another
word) the error is at the very end, not at the `lo'u`. -/
theorem C69_unclosed (p : Profile) (ptr : Nat) (o : Token) (q : List Token) (ho : o.selmaho = .Lohu) (hb : NotBound q)
    (hq : ∀ t ∈ q, t.selmaho ≠ .Lehu) : ∃ e, parseCst p ⟨ptr, o :: q⟩ = .val (.error e) ∧
      ((∀ t ∈ q, t.selmaho ≠ .Tei ∧ t.selmaho ≠ .Gaho) → e.error = .nom .eof ∧ e.location.list = []) := by
  have ht : Peg cst (.manyTill (.any .token) (.call (.word .Lehu))) q .error := by
    refine peg_till_error q ?_
    rintro pre post rfl
    refine word_error (.inl rfl) ?_
    rintro ⟨bs, x, q', rfl, _, h3⟩
    exact hq x (by simp) h3
  have hp : Peg cst (.call .LohuSumti) (o :: q) .failure := by
    have he : cst .LohuSumti = .wrap (.node .LohuSumti) (.seq (.call (.word .Lohu)) (.cut (.manyTill (.any .token) (.call (.word .Lehu))))) := rfl
    refine .call ?_
    rw [he]
    exact .wrapBad (.seqSecond (raw_here rfl ho hb) (.cutError ht) trivial) trivial
  have hf : ∃ e, runCst .Text ⟨ptr, o :: q⟩ = .val (.failure e) := by
    cases q with
    | nil =>
      refine scan_fails (patternScene [o] [.only [.Lohu]] none (known .LohuSumti [.failure]) .LohuSumti []) ?_ 100 ptr _ ?_
        (show scan (patternSteps _ _ _) _ _ _ = _ by decide +kernel)
      · exact known_right _ _ _ _ _ _ _ _ hp ⟨.failure, by simp, trivial⟩
      · exact .inl ⟨by simp, rfl, _, _, rfl, by simp [Cls.has, ho], rfl⟩
    | cons x q =>
      refine scan_fails (patternScene (o :: x :: q) [.only [.Lohu], .except [.Bu, .Zei]] (some []) (known .LohuSumti [.failure]) .LohuSumti [])
        ?_ 100 ptr _ ?_ (show scan (patternSteps _ _ _) _ _ _ = _ by decide +kernel)
      · exact known_right _ _ _ _ _ _ _ _ hp ⟨.failure, by simp, trivial⟩
      · have := hb [] x _ rfl nofun
        exact .inl ⟨by simp, rfl, _, _, rfl, by simp [Cls.has, ho], _, _, rfl, by simp [Cls.has, this], by simp [FitsPattern]⟩
  obtain ⟨e, hf⟩ := hf
  obtain ⟨res, h1, h2⟩ := parseCst_eq p ⟨ptr, o :: q⟩
  rw [hf] at h1
  cases h1
  refine ⟨e, h2, fun hn => ?_⟩
  have h3 := runCst_err .Text ⟨ptr, o :: q⟩
  rw [hf] at h3
  obtain ⟨o', hc, h4⟩ := h3 [] rfl
  rcases h4 with h4 | h4
  · cases h4
  rcases hc with ⟨rfl, hc, hl⟩ | ⟨c, hc, he⟩
  · exact ⟨by rw [hc], hl⟩
  · exfalso
    obtain ⟨t, ht1, ht2⟩ := h4
    have ht3 : o' = .Tei ∨ o' = .Gaho := by
      unfold closer at hc
      split at hc <;> simp at hc ⊢
    rcases List.mem_cons.mp ht1 with rfl | ht1
    · rw [ho] at ht2
      subst ht2
      simp at ht3
    · have := hn t ht1
      rw [ht2] at this
      rcases ht3 with rfl | rfl <;> simp at this

/-- **C69, `zoi`.** Any three tokens, of which the first is not `bu` or `zei`, are quoted by `zoi`. -/
theorem C69_zoi (p : Profile) (ptr : Nat) (z a b c : Token) (hz : z.selmaho = .Zoi) (ha : NotBound [a, b, c]) :
    ∃ root, parseCst p ⟨ptr, [z, a, b, c]⟩ = .val (.ok root) ∧
      PartOf (.node .ZoiSumti [.leaf .token z, .leaf .zoiDelimiter a, .leaf .zoiText b, .leaf .zoiDelimiter c]) root := by
  have hd : cst .ZoiDelimiter = .any .zoiDelimiter := rfl
  have ht : cst .ZoiText = .any .zoiText := rfl
  have hd' : ∀ {t : Token} {l : List Token}, Peg cst (.call .ZoiDelimiter) (t :: l) (.ok l [.leaf .zoiDelimiter t]) :=
    Peg.call (by rw [hd]; exact .any)
  have ht' : ∀ {t : Token} {l : List Token}, Peg cst (.call .ZoiText) (t :: l) (.ok l [.leaf .zoiText t]) :=
    Peg.call (by rw [ht]; exact .any)
  have hp : Peg cst (.call .ZoiSumti) [z, a, b, c] (.ok [] [.node .ZoiSumti [.leaf .token z, .leaf .zoiDelimiter a,
      .leaf .zoiText b, .leaf .zoiDelimiter c]]) := by
    have he : cst .ZoiSumti = .wrap (.node .ZoiSumti) (.seq (.call (.word .Zoi)) (.seq (.call .ZoiDelimiter)
      (.seq (.call .ZoiText) (.call .ZoiDelimiter)))) := rfl
    refine .call ?_
    rw [he]
    exact .wrap (.seq (raw_here rfl hz ha) (.seq hd' (.seq ht'
      hd')))
  have h1 := ha [] a _ rfl nofun
  refine scan_parses (patternScene [z, a, b, c] [.only [.Zoi], .except [.Bu, .Zei], .except [], .except []] none
    (known .ZoiSumti [.ok 4 true]) .ZoiSumti [.leaf .token z, .leaf .zoiDelimiter a, .leaf .zoiText b, .leaf .zoiDelimiter c])
    ?_ 100 4 p ptr _ ?_ (show scan (patternSteps _ _ _) _ _ _ = _ by decide +kernel) ?_
  · exact known_right _ _ _ _ _ _ _ _ hp ⟨.ok 4 true, by simp, .inl ⟨by simp, by simp, by simp [FitsPattern]⟩, by simp, by simp, by simp,
      fun _ => .head .self⟩
  · exact .inl ⟨by simp, rfl, _, _, rfl, by simp [Cls.has, hz], _, _, rfl, by simp [Cls.has, h1], _, _, rfl, by simp [Cls.has],
      _, _, rfl, by simp [Cls.has], rfl⟩
  · rintro r (⟨_, _, hr⟩ | ⟨_, hr⟩)
    · exact hr
    · exact hr

/-- The conditions on what follows are needed: in no parse does `zo` quote `bu`, nor `zei` unless `bu` or `zei` follows. -/
theorem C69_zo_only (p : Profile) (s : Toks) (root : Val) (h : parseCst p s = .val (.ok root)) (fs : List Val)
    (hq : PartOf (.node .ZoSumti fs) root) : ∃ (pre post : List Token) (z x : Token),
      fs = [.leaf .token z, .leaf .token x] ∧ s.list = pre ++ z :: x :: post ∧ z.selmaho = .Zo ∧
      x.selmaho ≠ .Bu ∧ (NotBound post → x.selmaho ≠ .Zei) := by
  obtain ⟨pre, hp⟩ := hq.at
  obtain ⟨a, here, post, hg, hl, hm⟩ := peg_placed cst_made ((C66_meaning p s root).mp h) _ _ rfl (by decide) pre _ fs (.head hp)
  have ha : a = .seq (.call (.word .Zo)) (.any .token) := by
    have hb : bodyIn .ZoSumti (cst (home .ZoSumti)) = some (.seq (.call (.word .Zo)) (.any .token)) := by decide +kernel
    unfold goodNode at hg
    rw [hb, show genericNodes.contains .ZoSumti = false by decide] at hg
    simp only [Bool.false_or, Bool.and_eq_true, decide_eq_true_eq, Option.some.injEq] at hg
    exact hg.2.symm
  subst ha
  obtain ⟨us0, hm, hfs⟩ := peg_wrap_ok hm
  simp only [CShape.build, List.cons.injEq, Val.node.injEq, true_and, and_true] at hfs
  subst hfs
  obtain ⟨q1, us, ws, h1, h2, rfl⟩ := peg_seq_ok hm
  have hz : cst (.word .Zo) = .seq (.raw .Zo) (.seq (.not (.call (.word .Bu))) (.not (.call (.word .Zei)))) := rfl
  cases h1 with
  | call h1 =>
    rw [hz] at h1
    obtain ⟨q2, us1, us2, h1', h3, rfl⟩ := peg_seq_ok h1
    obtain ⟨z, h4, ho, rfl⟩ := peg_raw_ok h1'
    obtain ⟨q3, us3, us4, h3', h5, rfl⟩ := peg_seq_ok h3
    obtain ⟨h6, rfl, rfl⟩ := peg_not_ok h3'
    obtain ⟨h7, rfl, rfl⟩ := peg_not_ok h5
    cases h2 with
    | @any _ x =>
      refine ⟨pre, post, z, x, rfl, by rw [hl, h4], ho, ?_, ?_⟩
      · intro hx
        have hb : cst (.word .Bu) = .raw .Bu := rfl
        have h8 : Peg cst (.call (.word .Bu)) (x :: post) (.ok post [.leaf .token x]) := .call (by rw [hb]; exact .raw hx)
        cases h6.unique _ h8
      · intro hn hx
        obtain ⟨r, vs, h8⟩ := zei_here hx hn
        cases h7.unique _ h8

/-- So of two tokens, the second is quoted exactly if it is neither `bu` nor `zei`. -/
theorem C69_zo_iff (p : Profile) (ptr : Nat) (z x : Token) (hz : z.selmaho = .Zo) :
    (∃ root, parseCst p ⟨ptr, [z, x]⟩ = .val (.ok root) ∧ PartOf (.node .ZoSumti [.leaf .token z, .leaf .token x]) root) ↔
      x.selmaho ≠ .Bu ∧ x.selmaho ≠ .Zei := by
  constructor
  · rintro ⟨root, h1, h2⟩
    obtain ⟨pre, post, z', x', h3, h4, _, h5, h6⟩ := C69_zo_only p _ root h1 _ h2
    cases h3
    refine ⟨h5, h6 ?_⟩
    have h7 : post = [] := by
      have := congrArg List.length h4
      simp at this
      exact List.length_eq_zero_iff.mp (by omega)
    subst h7
    rintro bs t rest hh
    simp at hh
  · rintro ⟨h1, h2⟩
    exact C69_zo p ptr z x hz h1 h2

/-! ### C70: letters -/

/-- **C70, what makes no letter.** In no parse is `bu`, `zei`, `si`, `su`, `sa` or `fa'o` made into a letter by `bu` (or the
first part of a compound with `zei`). -/
theorem C70_inner (p : Profile) (s : Toks) (root : Val) (h : parseCst p s = .val (.ok root)) (fs : List Val)
    (hq : PartOf (.node .BuInner fs) root) : ∃ t ∈ s.list, fs = [.leaf .token t] ∧ ¬ NoLetter t.selmaho := by
  have ht := partOf_tokens hq
  rw [C46_tokens p s root h] at ht
  obtain ⟨us, h1, h2⟩ := formed_only (n := .BuInner) (r0 := .BuInner) (fun r hr => by
    revert hr
    cases r with
    | word s => intro _; cases s <;> decide +kernel
    | _ => decide +kernel) (formed_root h) rfl fs (.head hq)
  have he : cst .BuInner = .postCond (.selmahoNotIn [.Bu, .Zei, .Si, .Su, .Sa, .Faho]) (.wrap (.node .BuInner) (.any .token)) := rfl
  rw [he] at h1
  cases h1 with
  | postCond h1 h3 =>
    cases h1 with
    | wrap h1 =>
      cases h1 with
      | @any _ t =>
        simp only [CShape.build] at h2
        have h4 : fs = [.leaf .token t] := by
          cases h2 with
          | tail h2 => cases h2
          | head h2 =>
            cases h2 with
            | self => rfl
            | node h2 =>
              cases h2 with
              | head h2 => cases h2
              | tail h2 => cases h2
        subst h4
        refine ⟨t, ht.subset (by simp [tokens, tokensL]), rfl, ?_⟩
        simpa [PostCond.holds, CShape.build, NoLetter] using h3

/-- **C70.** A word and `bu` make a letter exactly if the word is none of these. -/
theorem C70_letter (p : Profile) (ptr : Nat) (x b : Token) (hb : b.selmaho = .Bu) :
    (∃ root, parseCst p ⟨ptr, [x, b]⟩ = .val (.ok root) ∧ PartOf (.node .BuInner [.leaf .token x]) root) ↔ ¬ NoLetter x.selmaho := by
  constructor
  · rintro ⟨root, h1, h2⟩
    obtain ⟨t, _, h3, h4⟩ := C70_inner p _ root h1 _ h2
    cases h3
    exact h4
  · intro hn
    have hp : Peg cst (.call .BuInner) [x, b] (.ok [b] [.node .BuInner [.leaf .token x]]) := by
      have he : cst .BuInner = .postCond (.selmahoNotIn [.Bu, .Zei, .Si, .Su, .Sa, .Faho]) (.wrap (.node .BuInner) (.any .token)) := rfl
      refine .call ?_
      rw [he]
      refine .post (.wrap .any) ?_
      simpa [PostCond.holds, CShape.build, NoLetter] using hn
    refine scan_parses (patternScene [x, b] [.except [.Bu, .Zei, .Si, .Su, .Sa, .Faho], .only [.Bu]] none
      (known .BuInner [.ok 1 true]) .BuInner [.leaf .token x])
      ?_ 100 2 p ptr _ ?_ (show scan (patternSteps _ _ _) _ _ _ = _ by decide +kernel) ?_
    · exact known_right _ _ _ _ _ _ _ _ hp ⟨.ok 1 true, by simp, .inl ⟨by simp, by simp, by simp [FitsPattern, Cls.has, hb]⟩, by simp, by simp, by simp,
        fun _ => .head .self⟩
    · exact .inl ⟨by simp, rfl, _, _, rfl, by simpa [Cls.has, NoLetter] using hn, _, _, rfl, by simp [Cls.has, hb], rfl⟩
    · rintro r (⟨_, _, hr⟩ | ⟨_, hr⟩)
      · exact hr
      · exact hr

/-! ### The hypotheses are met -/

/-- `mi cusku zo si .i lo'u su zo le'u` -/
def quoted : List Selmaho := [.Koha, .Gismu, .Zo, .Si, .I, .Lohu, .Su, .Zo, .Lehu]

example : ∃ root fs, parseCst .debug (sample quoted) = .val (.ok root) ∧ PartOf (.node .LohuSumti fs) root ∧
    (∀ t ∈ (sample quoted).list, t.selmaho ≠ .Bu ∧ t.selmaho ≠ .Zei) ∧ WordsAndQuotes (sample quoted).list := by
  obtain ⟨root, fs, h1, h2⟩ := hasNodes_part (x := (quoted, [.ZoSumti, .LohuSumti])) (by decide +kernel) .LohuSumti (by decide)
  exact ⟨root, fs, h1, h2, by decide, C69_division _ _ _ h1 (by decide)⟩

/-- `lo'u si ba'e mi le'u` -/
example : ∃ (o c : Token) (q : List Token), o.selmaho = .Lohu ∧ c.selmaho = .Lehu ∧ (∀ t ∈ q, t.selmaho ≠ .Lehu) ∧ q.length = 3 ∧
    NotBound (q ++ [c]) ∧ (∀ t, q.getLast? = some t → t.selmaho ≠ .Bahe) := by
  refine ⟨⟨false, .Lohu, ⟨0, 1⟩⟩, ⟨false, .Lehu, ⟨8, 9⟩⟩, [⟨false, .Si, ⟨2, 3⟩⟩, ⟨false, .Bahe, ⟨4, 5⟩⟩, ⟨false, .Koha, ⟨6, 7⟩⟩], rfl, rfl,
    by decide, rfl, ?_, by simp⟩
  intro bs t rest h hb
  cases bs with
  | nil => simp at h; simp [← h.1]
  | cons b bs =>
    simp at h
    have := hb b (by simp)
    simp [← h.1] at this

example : NotBound [⟨false, .Koha, ⟨2, 3⟩⟩] := by
  intro bs t rest h hb
  cases bs with
  | nil => simp at h; simp [← h.1]
  | cons b bs => simp at h

/-- A condition `NotBound` fails for: `lo'u bu`. -/
example : ¬ NotBound [⟨false, .Bu, ⟨2, 3⟩⟩] := fun h => (h [] _ _ rfl nofun).1 rfl

example : ¬ NoLetter .Zo ∧ ¬ NoLetter .AnyText ∧ NoLetter .Faho := by decide

end Sneturfahi.Props
