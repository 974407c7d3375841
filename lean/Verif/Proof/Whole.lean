import Verif.Proof.LujvoForm
import Verif.Proof.LujvoInv

/-!
# Where lujvo begin in a chunk
-/

namespace Sneturfahi.Lj
set_option linter.constructorNameAsVariable false
set_option linter.unusedSimpArgs false
open Derives Spec Names Props
attribute [local irreducible] parseRule
attribute [-simp] text_cons text_nil text_append

variable {s : List Sound} {c d e v w q : Char}

/-! ### Consonants a word cannot begin with -/

/-- Is it this letter? -/
def isL (L : Rule) (c : Char) : Bool := (letterChars L).contains c

theorem isL_C {L : Rule} (hL : L ∈ letterRules) (h : Ok (C c :: s)) : ans (.call L) (text (C c :: s)) = if isL L c then some (text s) else none :=
  letter_C hL h

/-- What the rules `sibilant`, `other` and `liquid` take, by the first two letters. -/
def liquidOne (d : Char) : Bool := isL .l d || isL .r d
def sibilantTwo (d e : Char) : Bool := isL .c d || (isL .s d && !isL .x e) || ((isL .j d || isL .z d) && !isL .n e && !liquidOne e)
def otherOne (d : Char) : Bool := isL .p d || isL .k d || isL .f d || isL .x d || isL .b d || isL .g d || isL .v d || isL .m d || isL .n d || isL .t d || isL .d d
def otherTwo (d e : Char) : Bool := isL .p d || isL .k d || isL .f d || isL .x d || isL .b d || isL .g d || isL .v d || isL .m d ||
  (isL .n d && !liquidOne e) || ((isL .t d || isL .d d) && !isL .l e)

theorem or_if {α : Type} {b : Bool} {x r : α} {o : Option α} : (if b = true then some x else none).or o = some r ↔ (b = true ∧ x = r) ∨ (b = false ∧ o = some r) := by
  cases b <;> simp
theorem if_some {α : Type} {b : Bool} {x r : α} : (if b = true then some x else none) = some r ↔ b = true ∧ x = r := by
  cases b <;> simp
theorem bind_if {α β : Type} {b : Bool} {x : α} {r : β} {f : α → Option β} : (if b = true then some x else none).bind f = some r ↔ b = true ∧ f x = some r := by
  cases b <;> simp
theorem or_bind {α β : Type} {o : Option α} {b : Bool} {x : α} {f : α → Option β} :
    ((if b = true then some x else none).or o).bind f = ((if b = true then some x else none).bind f).or (if b then none else o.bind f) := by
  cases b <;> simp
theorem not_some_iff {ex : Exp Rule} {cs r : List Char} : ans (.not ex) cs = some r ↔ ans ex cs = none ∧ cs = r := by
  rw [ans_not]; cases ans ex cs <;> simp
theorem or_some_iff {α : Type} {a b : Option α} {r : α} : a.or b = some r ↔ a = some r ∨ (a = none ∧ b = some r) := by
  cases a <;> simp
theorem bind_some_iff {α β : Type} {a : Option α} {r : β} {f : α → Option β} : a.bind f = some r ↔ ∃ x, a = some x ∧ f x = some r := by
  cases a <;> simp
theorem if_none {α : Type} {b : Bool} {x : α} : (if b = true then some x else none) = none ↔ b = false := by
  cases b <;> simp
theorem or_none_iff {α : Type} {a b : Option α} : a.or b = none ↔ a = none ∧ b = none := by
  cases a <;> simp

theorem liquid_C (h : Ok (C c :: s)) : ans (.call .liquid) (text (C c :: s)) = if liquidOne c then some (text s) else none := by
  rw [ans_body]
  simp only [grammar, ans_alt, isL_C (L := .l) (by decide) h, isL_C (L := .r) (by decide) h, liquidOne]
  by_cases h1 : isL .l c = true <;> by_cases h2 : isL .r c = true <;> simp [h1, h2]

theorem sibilant_some {r : List Char} (h : Ok (C d :: C e :: s)) (hr : ans (.call .sibilant) (text (C d :: C e :: s)) = some r) :
    r = text (C e :: s) ∧ sibilantTwo d e = true := by
  have g := h.tail
  rw [ans_body] at hr
  simp only [grammar, ans_alt, ans_seq, isL_C (L := .c) (by decide) h, isL_C (L := .s) (by decide) h, isL_C (L := .j) (by decide) h, isL_C (L := .z) (by decide) h,
    or_some_iff, bind_some_iff, if_some, not_some_iff] at hr
  unfold sibilantTwo
  rcases hr with ⟨h1, rfl⟩ | ⟨-, ⟨x, ⟨h1, rfl⟩, h2, rfl⟩ | ⟨-, x, h1, y, ⟨h2, rfl⟩, h3, rfl⟩⟩
  · simp [h1]
  · rw [isL_C (L := .x) (by decide) g, if_none] at h2
    simp [h1, h2]
  · have : (isL .j d = true ∨ isL .z d = true) ∧ x = text (C e :: s) := by
      rcases h1 with ⟨h1, rfl⟩ | ⟨-, h1, rfl⟩ <;> simp [h1]
    obtain ⟨k1, rfl⟩ := this
    rw [isL_C (L := .n) (by decide) g, if_none] at h2
    rw [liquid_C g, if_none] at h3
    simp [k1, h2, h3]

theorem other_some {r : List Char} (h : Ok (C d :: s)) (hr : ans (.call .other) (text (C d :: s)) = some r) : r = text s ∧ otherOne d = true := by
  rw [ans_body] at hr
  simp only [grammar, ans_alt, ans_seq, isL_C (L := .p) (by decide) h, isL_C (L := .k) (by decide) h, isL_C (L := .f) (by decide) h, isL_C (L := .x) (by decide) h,
    isL_C (L := .b) (by decide) h, isL_C (L := .g) (by decide) h, isL_C (L := .v) (by decide) h, isL_C (L := .m) (by decide) h, isL_C (L := .n) (by decide) h,
    isL_C (L := .t) (by decide) h, isL_C (L := .d) (by decide) h, or_some_iff, bind_some_iff, if_some, not_some_iff] at hr
  unfold otherOne
  rcases hr with ⟨h1, rfl⟩ | ⟨-, ⟨h1, rfl⟩ | ⟨-, ⟨h1, rfl⟩ | ⟨-, ⟨h1, rfl⟩ | ⟨-, ⟨h1, rfl⟩ | ⟨-, ⟨h1, rfl⟩ | ⟨-, ⟨h1, rfl⟩ | ⟨-, ⟨h1, rfl⟩ |
    ⟨-, ⟨x, ⟨h1, rfl⟩, -, rfl⟩ | ⟨-, x, ⟨h1, rfl⟩ | ⟨-, h1, rfl⟩, -, rfl⟩⟩⟩⟩⟩⟩⟩⟩⟩ <;> simp [h1]

theorem other_two {r : List Char} (h : Ok (C d :: C e :: s)) (hr : ans (.call .other) (text (C d :: C e :: s)) = some r) :
    r = text (C e :: s) ∧ otherTwo d e = true := by
  have g := h.tail
  rw [ans_body] at hr
  simp only [grammar, ans_alt, ans_seq, isL_C (L := .p) (by decide) h, isL_C (L := .k) (by decide) h, isL_C (L := .f) (by decide) h, isL_C (L := .x) (by decide) h,
    isL_C (L := .b) (by decide) h, isL_C (L := .g) (by decide) h, isL_C (L := .v) (by decide) h, isL_C (L := .m) (by decide) h, isL_C (L := .n) (by decide) h,
    isL_C (L := .t) (by decide) h, isL_C (L := .d) (by decide) h, or_some_iff, bind_some_iff, if_some, not_some_iff] at hr
  unfold otherTwo
  rcases hr with ⟨h1, rfl⟩ | ⟨-, ⟨h1, rfl⟩ | ⟨-, ⟨h1, rfl⟩ | ⟨-, ⟨h1, rfl⟩ | ⟨-, ⟨h1, rfl⟩ | ⟨-, ⟨h1, rfl⟩ | ⟨-, ⟨h1, rfl⟩ | ⟨-, ⟨h1, rfl⟩ |
    ⟨-, ⟨x, ⟨h1, rfl⟩, h2, rfl⟩ | ⟨-, x, ⟨h1, rfl⟩ | ⟨-, h1, rfl⟩, h2, rfl⟩⟩⟩⟩⟩⟩⟩⟩⟩
  iterate 8 · simp [h1]
  · rw [liquid_C g, if_none] at h2; simp [h1, h2]
  · rw [isL_C (L := .l) (by decide) g, if_none] at h2; simp [h1, h2]
  · rw [isL_C (L := .l) (by decide) g, if_none] at h2; simp [h1, h2]

theorem affricate_some {r : List Char} (h : Ok (C d :: C e :: s)) (hr : ans (.call .affricate) (text (C d :: C e :: s)) = some r) :
    (isL .t d = true ∧ (isL .c e = true ∨ isL .s e = true)) ∨ (isL .d d = true ∧ (isL .j e = true ∨ isL .z e = true)) := by
  have g := h.tail
  rw [ans_body] at hr
  simp only [grammar, ans_alt, ans_seq, isL_C (L := .t) (by decide) h, isL_C (L := .d) (by decide) h, or_some_iff, bind_some_iff, if_some, not_some_iff] at hr
  rcases hr with ⟨x, ⟨h1, rfl⟩, h2⟩ | ⟨-, x, ⟨h1, rfl⟩, h2⟩
  · simp only [isL_C (L := .c) (by decide) g, isL_C (L := .s) (by decide) g, if_some] at h2
    exact .inl ⟨h1, by rcases h2 with h2 | h2 <;> simp [h2]⟩
  · simp only [isL_C (L := .j) (by decide) g, isL_C (L := .z) (by decide) g, if_some] at h2
    exact .inr ⟨h1, by rcases h2 with h2 | h2 <;> simp [h2]⟩

/-- Two consonants that may stand together and are taken one after the other may begin a word. -/
theorem two_begin : ∀ d ∈ allConsonants, ∀ e ∈ allConsonants, PermissiblePair (lower d) (lower e) →
    ((((isL .t d && (isL .c e || isL .s e)) || (isL .d d && (isL .j e || isL .z e))) ||
      ((sibilantTwo d e && (otherOne e || liquidOne e)) || (otherTwo d e && liquidOne e))) = true) → [lower d, lower e] ∈ initialPairs := by
  decide +kernel

theorem opt_cases {ex : Exp Rule} {cs r : List Char} (h : ans (.opt ex) cs = some r) : ans ex cs = some r ∨ r = cs := by
  have : ans (.opt ex) cs = (ans ex cs).or (some cs) := by
    show ans (.alt ex .null) cs = _
    rw [ans_alt, ans_null]
  rw [this, or_some_iff] at h
  rcases h with h | ⟨-, h⟩
  · exact .inl h
  · cases h; exact .inr rfl

theorem initial_none (h : Ok (C d :: C e :: s)) (hp : [lower d, lower e] ∉ initialPairs) : ans (.call .initial) (text (C d :: C e :: s)) = none := by
  have g := h.tail
  have hd : d ∈ allConsonants := h.good.1
  have he : e ∈ allConsonants := g.good.1
  have hpp : PermissiblePair (lower d) (lower e) := h.good.2.1
  have no := fun k => hp (two_begin d hd e he hpp k)
  refine Option.eq_none_iff_forall_ne_some.mpr fun r hr => ?_
  rw [ans_body] at hr
  simp only [grammar, ans_andNot, bind_some_iff] at hr
  obtain ⟨x, ⟨y, hy, hx⟩, -⟩ := hr
  split at hx
  · cases hx
  · rename_i hc
    cases hx
    rw [ans_alt, or_some_iff] at hy
    rcases hy with hy | ⟨-, hy⟩
    · rcases affricate_some h hy with ⟨h1, h2⟩ | ⟨h1, h2⟩
      · exact no (by rcases h2 with h2 | h2 <;> simp [h1, h2])
      · exact no (by rcases h2 with h2 | h2 <;> simp [h1, h2])
    · simp only [ans_seq, bind_some_iff] at hy
      obtain ⟨a, h1, b, h2, h3⟩ := hy
      rcases opt_cases h1 with h1 | rfl
      · obtain ⟨rfl, k1⟩ := sibilant_some h h1
        rcases opt_cases h2 with h2 | rfl
        · obtain ⟨rfl, k2⟩ := other_some g h2
          exact no (by simp [k1, k2])
        · rcases opt_cases h3 with h3 | rfl
          · rw [liquid_C g, if_some] at h3
            exact no (by simp [k1, h3.1])
          · rw [cons_C g] at hc; simp at hc
      · rcases opt_cases h2 with h2 | rfl
        · obtain ⟨rfl, k2⟩ := other_two h h2
          rcases opt_cases h3 with h3 | rfl
          · rw [liquid_C g, if_some] at h3
            exact no (by simp [k2, h3.1])
          · rw [cons_C g] at hc; simp at hc
        · rcases opt_cases h3 with h3 | rfl
          · rw [liquid_C h, if_some] at h3
            obtain ⟨h3, rfl⟩ := h3
            rw [cons_C g] at hc; simp at hc
          · rw [cons_C h] at hc; simp at hc

theorem onset_none (h : Ok (C d :: C e :: s)) (hp : [lower d, lower e] ∉ initialPairs) : ans (.call .onset) (text (C d :: C e :: s)) = none := by
  have hg : ans (.call .glide) (text (C d :: C e :: s)) = none := by rw [ans_out (reads h.good).glide]; rfl
  rw [ans_body]
  simp [grammar, ans_alt, h_C h, hg, initial_none h hp]

theorem head_none (h : Ok (C d :: C e :: s)) (hp : [lower d, lower e] ∉ initialPairs) : ans (.call .brivla_head) (text (C d :: C e :: s)) = none := by
  have ho := onset_none h hp
  refine Option.eq_none_iff_forall_ne_some.mpr fun r hr => ?_
  rw [ans_body] at hr
  simp only [grammar, ans_seq, bind_some_iff, not_some_iff] at hr
  obtain ⟨x, ⟨-, rfl⟩, y, ⟨-, rfl⟩, z, ⟨-, rfl⟩, u, hu, -⟩ := hr
  rw [ans_peek, ho] at hu
  simp at hu

/-- No word of more than one syllable begins with two such consonants. -/
theorem stuck (h : Ok (C d :: C e :: s)) (hp : [lower d, lower e] ∉ initialPairs) : ans (.call .gismu) (text (C d :: C e :: s)) = none ∧
    ans (.call .fuhivla) (text (C d :: C e :: s)) = none ∧ ans (.call .lujvo_minimal) (text (C d :: C e :: s)) = none := by
  have g := h.tail
  have ip : ans (.call .initial_pair) (text (C d :: C e :: s)) = none := by
    rw [ans_body]; simp [grammar, ans_seq, ans_peek, initial_none h hp]
  have h0 : ans (.call .fuhivla_head) (text (C d :: C e :: s)) = none := by
    rw [ans_body]; simp only [grammar, ans_guardNot, head_none h hp]; split <;> rfl
  have h1 : ans (.call .fuhivla) (text (C d :: C e :: s)) = none := by rw [ans_body]; simp [grammar, ans_seq, h0]
  have h2 : ans (.call .fuhivla_rafsi) (text (C d :: C e :: s)) = none := by
    rw [ans_body]
    simp only [grammar, ans_seq, ans_peek]
    split <;> simp [ans_seq, h0]
  have h3 : ans (.call .stressed_fuhivla_rafsi) (text (C d :: C e :: s)) = none := by rw [ans_body]; simp [grammar, ans_seq, h0]
  have h4 : ans (.call .extended_rafsi) (text (C d :: C e :: s)) = none := by rw [ans_body]; simp [grammar, ans_alt, h2, hy3 h]
  have h5 : ans (.call .stressed_extended_rafsi) (text (C d :: C e :: s)) = none := by rw [ans_body]; simp [grammar, ans_alt, h3, hy4 h]
  have uv : ans (.call .unstressed_vowel) (text (C e :: s)) = none := by
    rw [ans_body]; simp only [grammar, ans_seq, ans_not, ans_guardNot]; ev [g]
  have sv : ans (.call .stressed_vowel) (text (C e :: s)) = none := by ev [g]
  have gi : ans (.call .gismu) (text (C d :: C e :: s)) = none := by ev [h, g, ip]
  have yr : ans (.call .y_rafsi) (text (C d :: C e :: s)) = none := by ev [h, g, ip, uv]
  have yl : ans (.call .y_less_rafsi) (text (C d :: C e :: s)) = none := by ev [h, g, ip, uv]
  have sy : ans (.call .stressed_y_rafsi) (text (C d :: C e :: s)) = none := by ev [h, g, ip, uv]
  have sl : ans (.call .stressed_y_less_rafsi) (text (C d :: C e :: s)) = none := by ev [h, g, ip, uv]
  have cf : ans (.call .cvv_final_rafsi) (text (C d :: C e :: s)) = none := by ev [h, g, ip, uv]
  have ir : ans (.call .initial_rafsi) (text (C d :: C e :: s)) = none := by
    rw [ans_body]; simp only [grammar, ans_alt, h4, yr, ans_seq, ans_not, Option.none_or]; split <;> simp [ans_seq, yl]
  have si : ans (.call .stressed_initial_rafsi) (text (C d :: C e :: s)) = none := by rw [ans_body]; simp [grammar, ans_alt, h5, sy, sl]
  have bc : ans (.call .brivla_core) (text (C d :: C e :: s)) = none := by rw [ans_body]; simp [grammar, ans_alt, ans_seq, h1, gi, cf, si]
  refine ⟨gi, h1, ?_⟩
  rw [ans_body]; simp only [grammar, ans_seq, ans_rep_stop ir]; exact bc

theorem cluster_cvcy (h : Ok (C d :: C e :: s)) : ans (.call .cvcy_lujvo) (text (C d :: C e :: s)) = none := by
  have g := h.tail
  rw [ans_body]
  ev [h, g]

theorem cluster_some (h : Ok (C d :: C e :: s)) : ∃ x, parseRule .cluster (text (C d :: C e :: s)) = some x := by
  have g := h.tail
  obtain ⟨m1, h1⟩ := ans_some.mp (cons_C h)
  obtain ⟨m2, h2⟩ := ans_some.mp (cons_C g)
  cases hr : parseRule .cluster (text (C d :: C e :: s)) with
  | some x => exact ⟨x, rfl⟩
  | none =>
    exfalso
    have hd : Derives grammar (.call .cluster) (text (C d :: C e :: s)) none := derives_iff.mpr hr
    generalize hn : (none : Res) = n at hd
    cases hd with
    | call hd0 =>
      have hd : Derives grammar (.rep 2 (.call .consonant)) (text (C d :: C e :: s)) n := hd0
      generalize text (C d :: C e :: s) = cs at *
      cases hd with
      | repFail k0 => rw [derives_iff.mp k0] at h1; cases h1
      | repStep k1 k2 =>
        have := h1.symm.trans (derives_iff.mp k1)
        cases this
        generalize text (C e :: s) = cs at *
        cases k2 with
        | repFail k0 => rw [derives_iff.mp k0] at h2; cases h2
        | @repStep _ _ _ _ _ res k3 k4 =>
          have k5 := rep0_some k4 rfl
          cases res with
          | none => exact k5 rfl
          | some x => simp [Res.prepend] at hn

theorem vc_of_C (h : Ok (C d :: s)) : d ∈ lowVowels ++ allConsonants := mem_vc_of_consonant h.good.1

/-- No cmavo begins with two consonants. -/
theorem no_minimal (h : Ok (C d :: C e :: s)) :
    parseRule .cmavo_minimal (text (C d :: C e :: s)) = none := by
  have hm := vc_of_C h
  obtain ⟨x, hcl⟩ := cluster_some h
  refine minimal_of_form (ans_none.mp (cluster_cvcy h)) ?_
  apply derives_iff.mp
  refine .call ?_
  refine .longest (ra := none) (rb := none) (derives_iff.mpr (notDigit hm _))
    (.longest (ra := none) (rb := none) (.repFail (derives_iff.mpr (notY hm _))) ?_)
  exact .seqGo (m := []) (res := none) (.notYes (derives_iff.mpr (notH hm _))) (.seqFail (.notNo (derives_iff.mpr hcl)))

theorem no_capital {s : List Sound} (h : Ok s) : parseRule .explicitly_stressed_brivla_minimal (text s) = none :=
  needCapital_none rfl (fun c hc => (h.letters c hc).2)

theorem fallOff_of {s : List Sound} (h : Ok s) (hm : parseRule .cmavo_minimal (text s) = none) : fallOffPure (text s) = none := by
  unfold fallOffPure
  rw [hm]
  exact no_capital h

theorem stuck_rest (h : Ok (C d :: C e :: s)) (hp : [lower d, lower e] ∉ initialPairs) :
    fallOffPure (text (C d :: C e :: s)) = none ∧ postWordPure (text (C d :: C e :: s)) = false := by
  obtain ⟨h1, h2, h3⟩ := stuck h hp
  have hm := no_minimal h
  refine ⟨fallOff_of h hm, ?_⟩
  unfold postWordPure
  rw [ans_none.mp h1, ans_none.mp h2, ans_none.mp h3, hm]
  simp

/-- A word made of rafsi from which nothing falls off is a word for itself. -/
theorem post_word {T : List Sound} (h : Str T) (g : Ok T) : postWordPure (text T) = true := by
  have h1 := (str_lujvo h g).1
  obtain ⟨e, x, t, rfl, -⟩ := str_begins h g
  have h2 := ans_none.mp (nuc_C g)
  unfold postWordPure
  rw [h1, h2]
  simp

/-- What begins with a rafsi like toby- is not begun by a cmavo. -/
theorem cvcy_str {T : List Sound} (g0 : Ok (C c :: V v :: C d :: Y :: T)) (hT : Str T) : (ans (.call .cvcy_lujvo) (text (C c :: V v :: C d :: Y :: T))).isSome := by
  have g1 := g0.tail
  have g2 := g1.tail
  have g3 := g2.tail
  have gT := g3.tail
  have hs : ans (.call .stress) (text (C d :: Y :: T)) = none := stress_none ((str_apart hT gT).before [d, 'y'])
  have hl := lujvo_go hT gT
  obtain ⟨e, x, t, rfl, -⟩ := str_begins hT gT
  rw [ans_seq] at hl
  rw [ans_body]
  ev [g0, g1, g2, g3, gT, hs, hl]

theorem cvcy_short {T : List Sound} (g0 : Ok (C c :: V v :: C d :: Y :: T)) (hT : Short T) : (ans (.call .cvcy_lujvo) (text (C c :: V v :: C d :: Y :: T))).isSome := by
  have g1 := g0.tail
  have g2 := g1.tail
  have g3 := g2.tail
  have gT := g3.tail
  obtain ⟨⟨f, x, t, rfl, yx, vx, rx, fx, sx⟩, g, ox, gx, yg⟩ := short_facts hT gT
  have s1 := sC g2 (sY g3 ox gx yg)
  rw [ans_body]
  ev [g0, g1, g2, g3, gT, s1, fx]

/-! ### From letters to sounds -/

/-- A consonant is a sound of its own. -/
theorem split_at {d : Char} (hd : d ∈ allConsonants) : ∀ {T : List Sound} {p r : List Char}, Ok T → text T = p ++ d :: r →
    ∃ A S, T = A ++ C d :: S ∧ text A = p ∧ text S = r
  | [], p, r, _, e => by cases p <;> simp [text] at e
  | x :: T, p, r, h, e => by
    rw [text_cons] at e
    rcases List.append_eq_append_iff.mp e with ⟨q, h1, h2⟩ | ⟨q, h1, h2⟩
    · obtain ⟨A, S, rfl, rfl, rfl⟩ := split_at hd h.tail h2
      exact ⟨x :: A, S, rfl, by rw [h1, text_cons], rfl⟩
    · cases q with
      | nil =>
        rw [List.append_nil] at h1
        obtain ⟨A, S, rfl, h3, rfl⟩ := split_at (p := []) hd h.tail h2.symm
        exact ⟨x :: A, S, rfl, by rw [text_cons, h3, h1]; simp, rfl⟩
      | cons y q =>
        simp only [List.cons_append, List.cons.injEq] at h2
        obtain ⟨rfl, h2⟩ := h2
        have hx := h.plain x (by simp)
        have k1 : ∀ v ∈ c!"aeiou", v ∉ allConsonants := by decide
        have k2 : ∀ v ∈ c!"'h", v ∉ allConsonants := by decide
        have k3 : ∀ g ∈ [c!"ai", c!"au", c!"ei", c!"oi"], ∀ v ∈ g, v ∉ allConsonants := by decide
        have hmem : d ∈ x.letters := by rw [h1]; simp
        cases x with
        | consonant c =>
          simp only [Sound.letters] at h1
          cases p with
          | nil =>
            simp only [List.nil_append, List.cons.injEq] at h1
            obtain ⟨rfl, rfl⟩ := h1
            exact ⟨[], T, rfl, rfl, by simpa using h2.symm⟩
          | cons z p => simp at h1
        | vowels g =>
          exfalso
          simp only [Sound.letters] at hmem
          rcases hx with ⟨v, hv, rfl⟩ | rfl | hx
          · simp only [List.mem_singleton] at hmem; subst hmem; exact k1 _ hv hd
          · simp only [List.mem_singleton] at hmem; subst hmem; exact absurd hd (by decide)
          · exact k3 _ hx _ hmem hd
        | apostrophe c =>
          exfalso
          simp only [Sound.letters, List.mem_singleton] at hmem
          subst hmem
          exact k2 _ h.good.1 hd
        | _ => exact absurd hx (by simp [Plain])

theorem text_nil_of {A R : List Sound} (h : Ok (A ++ R)) (e : text A = []) : A = [] := by
  cases A with
  | nil => rfl
  | cons x A =>
    exfalso
    rw [text_cons] at e
    have hx := (List.append_eq_nil_iff.mp e).1
    have hw := h.good.1
    cases x with
    | vowels g => exact group_ne_nil hw hx
    | _ => simp [Sound.letters] at hx

theorem cluster_start {T : List Sound} (g : Ok T) {c d : Char} {t : List Char} (hc : c ∈ allConsonants) (hd : d ∈ allConsonants)
    (e : text T = c :: d :: t) : fallOffPure (text T) = none := by
  obtain ⟨A, S, rfl, hA, hS⟩ := split_at (p := []) hc g e
  obtain rfl := text_nil_of g hA
  have g1 : Ok S := Ok.tail g
  obtain ⟨B, S, rfl, hB, hS⟩ := split_at (p := []) hd g1 hS
  obtain rfl := text_nil_of g1 hB
  exact fallOff_of g (no_minimal g)

theorem pair_rest {T : List Sound} (g : Ok T) {p t : List Char} {d e : Char} (hd : d ∈ allConsonants) (he : e ∈ allConsonants)
    (hp : [lower d, lower e] ∉ initialPairs) (hT : text T = p ++ d :: e :: t) : fallOffPure (d :: e :: t) = none ∧ postWordPure (d :: e :: t) = false := by
  obtain ⟨A, S, rfl, hA, hS⟩ := split_at hd g hT
  have g1 : Ok S := Ok.tail g.suffix
  obtain ⟨B, S, rfl, hB, hS2⟩ := split_at (p := []) he g1 hS
  obtain rfl := text_nil_of g1 hB
  have := stuck_rest (d := d) (e := e) (s := S) g.suffix hp
  rw [text_cons, text_cons, hS2] at this
  exact this

theorem begins_not_y {R : List Sound} {t : List Char} (g : Ok R) (hb : ∃ e x r, R = C e :: x :: r) (e : text R = 'y' :: t) : False := by
  obtain ⟨c, x, r, rfl⟩ := hb
  rw [text_cons] at e
  simp only [Sound.letters, List.cons_append, List.cons.injEq] at e
  obtain ⟨rfl, -⟩ := e
  exact absurd (show 'y' ∈ allConsonants from g.good.1) (by decide)

theorem aff_y {a R : List Sound} (h : Aff a R) (g : Ok (a ++ R)) (hb : ∃ e x r, R = C e :: x :: r) {c v d : Char} {t : List Char}
    (hv : v ∈ c!"aeiou") (hd : d ∈ allConsonants) (e : text (a ++ R) = c :: v :: d :: 'y' :: t) : a = [C c, V v, C d, Y] := by
  have k1 : ∀ v ∈ c!"aeiou", v ∉ allConsonants := by decide
  have k2 : ∀ v ∈ c!"'h", v ∉ allConsonants := by decide
  have k3 : ∀ g ∈ diphs, ∀ v ∈ g, v ∉ allConsonants := by decide
  have gR := g.suffix
  cases h with
  | cvc _ =>
    simp only [List.cons_append, List.nil_append, text_cons, Sound.letters, List.cons.injEq] at e
    exact (begins_not_y gR hb e.2.2.2).elim
  | ccv _ _ =>
    simp only [List.cons_append, List.nil_append, text_cons, Sound.letters, List.cons.injEq] at e
    exact absurd (e.2.1 ▸ (Ok.tail g).good.1 : v ∈ allConsonants) (k1 v hv)
  | cvv h1 h2 =>
    simp only [List.cons_append, List.nil_append, text_cons, Sound.letters, List.cons.injEq] at e
    have := k3 _ h1 d (by rw [e.2.2.1]; simp)
    exact absurd hd this
  | cvhv h1 h2 h3 =>
    simp only [List.cons_append, List.nil_append, text_cons, Sound.letters, List.cons.injEq] at e
    exact absurd hd (k2 d (e.2.2.1 ▸ (Ok.tail (Ok.tail g)).good.1))
  | cvcy _ =>
    simp only [List.cons_append, List.nil_append, text_cons, Sound.letters, List.cons.injEq] at e
    rw [e.1, e.2.1, e.2.2.1]
  | cvccy _ =>
    simp only [List.cons_append, List.nil_append, text_cons, Sound.letters, List.cons.injEq] at e
    have := (Ok.tail (Ok.tail (Ok.tail g))).good.1
    rw [e.2.2.2.1] at this
    exact absurd (show 'y' ∈ allConsonants from this) (by decide)
  | ccvcy _ _ =>
    simp only [List.cons_append, List.nil_append, text_cons, Sound.letters, List.cons.injEq] at e
    exact absurd (e.2.1 ▸ (Ok.tail g).good.1 : v ∈ allConsonants) (k1 v hv)

theorem y_start {T : List Sound} (hT : Str T) (g : Ok T) {c v d : Char} {t : List Char} (hv : v ∈ c!"aeiou")
    (hd : d ∈ allConsonants) (e : text T = c :: v :: d :: 'y' :: t) : fallOffPure (text T) = none := by
  have key : ∀ {T}, (ans (.call .cvcy_lujvo) (text T)).isSome → parseRule .cmavo_minimal (text T) = none := by
    intro T h
    have : ans (.call .cmavo_minimal) (text T) = none := by rw [ans_body]; simp [grammar, ans_guardNot, h]
    exact ans_none.mp this
  have k1 : ∀ v ∈ c!"aeiou", v ∉ allConsonants := by decide
  have k2 : ∀ v ∈ c!"'h", v ∉ allConsonants := by decide
  have k3 : ∀ g ∈ diphs, ∀ v ∈ g, v ∉ allConsonants := by decide
  refine fallOff_of g ?_
  cases hT with
  | @more a R ha hR =>
    obtain ⟨f, x, r, hf, -⟩ := str_begins hR g.suffix
    obtain rfl := aff_y ha g ⟨f, x, r, hf⟩ hv hd e
    exact key (cvcy_str g hR)
  | tail hT =>
    cases hT with
    | @short a S ha hS =>
      obtain ⟨⟨f, x, r, hf, -⟩, -⟩ := short_facts hS g.suffix
      obtain rfl := aff_y ha g ⟨f, x, r, hf⟩ hv hd e
      exact key (cvcy_short g hS)
    | gis1 _ _ =>
      exfalso
      simp only [text_cons, Sound.letters, List.cons_append, List.nil_append, List.cons.injEq] at e
      have := (Ok.tail (Ok.tail (Ok.tail g))).good.1
      rw [e.2.2.2.1] at this
      exact absurd (show 'y' ∈ allConsonants from this) (by decide)
    | gis2 _ _ _ =>
      exfalso
      simp only [text_cons, Sound.letters, List.cons_append, List.nil_append, List.cons.injEq] at e
      exact absurd (e.2.1 ▸ (Ok.tail g).good.1 : v ∈ allConsonants) (k1 v hv)
    | cvhv _ _ =>
      exfalso
      simp only [text_cons, Sound.letters, List.cons_append, List.nil_append, List.cons.injEq] at e
      exact absurd hd (k2 d (e.2.2.1 ▸ (Ok.tail (Ok.tail g)).good.1))
    | bare ha hS =>
      exfalso
      cases ha with
      | cvv h1 =>
        simp only [text_cons, Sound.letters, List.cons_append, List.nil_append, List.cons.injEq] at e
        exact absurd hd (k3 _ h1 d (by rw [e.2.2.1]; simp))
      | cvhv _ _ =>
        simp only [text_cons, Sound.letters, List.cons_append, List.nil_append, List.cons.injEq] at e
        exact absurd hd (k2 d (e.2.2.1 ▸ (Ok.tail (Ok.tail g)).good.1))

/-! ### One syllable -/

theorem ans_suffix {rule : Rule} {cs t : List Char} (h : ans (.call rule) cs = some t) : ∃ m, cs = m ++ t := by
  obtain ⟨m, hm⟩ := ans_some.mp h
  exact ⟨m, (parseRule_append hm).symm⟩

theorem onset_end : ans (.call .final_syllable) [] = none := ans_none.mpr (by decide +kernel)
theorem cs_end : ans (.call .consonantal_syllable) [] = none := ans_none.mpr (by decide +kernel)
theorem coda_end {r : List Char} (h : ans (.call .coda) [] = some r) : r = [] := by
  obtain ⟨m, e⟩ := ans_suffix h
  exact (List.append_eq_nil_iff.mp e.symm).2

theorem mono_nucleus (g : Ok [C d, C e, D v w]) {m t r : List Char} (hs : [d, e, v, w] = m ++ t) (h : ans (.call .nucleus) t = some r) : r = [] := by
  have h0 : ans (.call .nucleus) [d, e, v, w] = none := nuc_C g
  have h1 : ans (.call .nucleus) [e, v, w] = none := nuc_C g.tail
  have h2 : ans (.call .nucleus) [v, w] = some [] := nuc_V g.tail.tail
  have h4 : ans (.call .nucleus) [] = none := nuc_nil
  rcases m with _ | ⟨_, _ | ⟨_, _ | ⟨_, _ | ⟨_, m⟩⟩⟩⟩ <;> simp at hs
  · rw [← hs, h0] at h; cases h
  · rw [← hs.2, h1] at h; cases h
  · rw [← hs.2.2, h2] at h; cases h; rfl
  · obtain ⟨a, ha⟩ := ans_some.mp h
    have hne := parseRule_ne_nil (by decide) ha
    have happ := parseRule_append ha
    rw [← hs.2.2.2] at happ
    cases a with
    | nil => exact absurd rfl hne
    | cons x a =>
      simp at happ
      exact happ.2.2
  · rw [hs.2.2.2.2.2, h4] at h; cases h

theorem mono_syllable (g : Ok [C d, C e, D v w]) {m t r : List Char} (hs : [d, e, v, w] = m ++ t) (h : ans (.call .syllable) t = some r) : r = [] := by
  obtain ⟨t1, h1, k1⟩ := v_seq (v_call h)
  obtain ⟨t2, h2, k2⟩ := v_seq k1
  obtain ⟨rfl, -⟩ := v_not h2
  obtain ⟨t3, h3, k3⟩ := v_seq k2
  obtain ⟨m1, rfl⟩ := ans_suffix h1
  rw [← List.append_assoc] at hs
  obtain rfl := mono_nucleus g hs h3
  rcases v_opt k3 with h | h
  · exact coda_end h
  · exact h

theorem mono_fuhivla (g : Ok [C d, C e, D v w]) : ans (.call .fuhivla) [d, e, v, w] = none := by
  refine Option.eq_none_iff_forall_ne_some.mpr fun r h => ?_
  have h := v_call h
  obtain ⟨t1, h1, h⟩ := v_seq h
  obtain ⟨t2, h2, h⟩ := v_seq h
  obtain ⟨t3, h3, h⟩ := v_seq h
  obtain ⟨m1, hm⟩ := ans_suffix h1
  have : t2 = [] := by
    rcases v_alt (v_call h2) with h2 | h2
    · have hl : ∀ c ∈ t1, capital c = false := fun c hc => (g.letters c (by show c ∈ [d, e, v, w]; rw [hm]; simp [hc])).2
      rw [ans_none.mpr (needCapital_none (rule := .explicitly_stressed_syllable) rfl hl)] at h2
      cases h2
    · obtain ⟨t4, h4, h5⟩ := v_seq h2
      obtain ⟨rfl, -⟩ := v_peek h5
      exact mono_syllable g hm h4
  subst this
  rw [ans_rep_stop cs_end] at h3
  cases h3
  rw [onset_end] at h
  cases h

theorem mono_rest (g : Ok [C d, C e, D v w]) (hv : [v, w] ∈ diphs) : fallOffPure [d, e, v, w] = none ∧ postWordPure [d, e, v, w] = false := by
  have hm := no_minimal g
  have hb : Bare0 [d, e, v, w] := by
    have k1 : ∀ c ∈ allConsonants, c ≠ ',' ∧ isYLetter c = false := by decide
    have k2 : ∀ g ∈ diphs, ∀ c ∈ g, c ≠ ',' ∧ isYLetter c = false := by decide
    intro c hc
    simp only [List.mem_cons, List.not_mem_nil, or_false] at hc
    rcases hc with rfl | rfl | rfl | rfl
    · exact k1 _ g.good.1
    · exact k1 _ g.tail.good.1
    · exact k2 _ hv _ (by simp)
    · exact k2 _ hv _ (by simp)
  have g1 := g.tail
  have g2 := g1.tail
  have fu := mono_fuhivla g
  have fu' : ans (.call .fuhivla) (text [C d, C e, D v w]) = none := fu
  have vd : ans (.call .vowel) (text [D v w]) = none := vow_D g2
  have ip : ans (.call .initial_pair) (text [C d, C e, D v w]) = none ∨ ans (.call .initial_pair) (text [C d, C e, D v w]) = some (text [D v w]) := by
    rw [ans_body]
    simp only [grammar, ans_seq, ans_peek]
    split
    · right; simp [ans_seq, cons_C g, cons_C g1, ans_not, cons_V g2]
    · left; rfl
  have gi : ans (.call .gismu) (text [C d, C e, D v w]) = none := by rcases ip with ip | ip <;> ev [g, g1, g2, ip, vd]
  have cf : ans (.call .cvv_final_rafsi) (text [C d, C e, D v w]) = none := by ev [g, g1]
  have ny : ∀ {rule}, needY rule = true → ans (.call rule) (text [C d, C e, D v w]) = none := fun h => no_y h hb
  have yl : ans (.call .y_less_rafsi) (text [C d, C e, D v w]) = none := by
    have := ny (rule := .y_rafsi) rfl
    have := ny (rule := .stressed_y_rafsi) rfl
    rcases ip with ip | ip <;> ev [g, g1, g2, ip, vd]
  have sl : ans (.call .stressed_y_less_rafsi) (text [C d, C e, D v w]) = none := by rcases ip with ip | ip <;> ev [g, g1, g2, ip, vd]
  have ir : ans (.call .initial_rafsi) (text [C d, C e, D v w]) = none := by
    rw [ans_body]
    simp only [grammar, ans_alt, ny (rule := .extended_rafsi) rfl, ny (rule := .y_rafsi) rfl, ans_seq, ans_not, Option.none_or]
    split <;> simp [ans_seq, yl]
  have si : ans (.call .stressed_initial_rafsi) (text [C d, C e, D v w]) = none := by
    rw [ans_body]; simp [grammar, ans_alt, ny (rule := .stressed_extended_rafsi) rfl, ny (rule := .stressed_y_rafsi) rfl, sl]
  have bc : ans (.call .brivla_core) (text [C d, C e, D v w]) = none := by rw [ans_body]; simp [grammar, ans_alt, ans_seq, fu', gi, cf, si]
  have lj : ans (.call .lujvo_minimal) (text [C d, C e, D v w]) = none := by rw [ans_body]; simp only [grammar, ans_seq, ans_rep_stop ir]; exact bc
  refine ⟨fallOff_of g hm, ?_⟩
  have e1 : parseRule .gismu [d, e, v, w] = none := ans_none.mp gi
  have e2 : parseRule .fuhivla [d, e, v, w] = none := ans_none.mp fu
  have e3 : parseRule .lujvo_minimal [d, e, v, w] = none := ans_none.mp lj
  have e4 : parseRule .cmavo_minimal [d, e, v, w] = none := hm
  unfold postWordPure
  rw [e1, e2, e3, e4]
  simp

theorem one_rest {T : List Sound} (g : Ok T) {p : List Char} {d e v w : Char} (hd : d ∈ allConsonants) (he : e ∈ allConsonants)
    (hv : [v, w] ∈ diphs) (hT : text T = p ++ [d, e, v, w]) : fallOffPure [d, e, v, w] = none ∧ postWordPure [d, e, v, w] = false := by
  obtain ⟨A, S, rfl, hA, hS⟩ := split_at hd g hT
  have g1 : Ok S := Ok.tail g.suffix
  obtain ⟨B, S, rfl, hB, hS2⟩ := split_at (p := []) he g1 hS
  obtain rfl := text_nil_of g1 hB
  have g2 : Ok S := Ok.tail g1
  have gd : Names.Good [D v w] := ⟨(diph_group hv).1, ⟨rfl, rfl⟩, trivial, trivial⟩
  obtain rfl : S = [D v w] := Names.unique g2.good gd hS2
  exact mono_rest g.suffix hv

end Sneturfahi.Lj
