import Verif.Proof.CstDerive
import Verif.Proof.CstErr

/-!
# Words the grammar has no use for
-/

namespace Sneturfahi

open Spec

/-- Executable version of `Unused`. -/
def unusedB (s : Selmaho) : Bool :=
  s.isFundamentallyExperimental || [Selmaho.Si, .Sa, .Su, .UnknownCmavo, .AnyText, .ZoiDelimiter].contains s

theorem unusedB_iff (s : Selmaho) : unusedB s = true ↔ Unused s := by
  simp only [unusedB, Unused, Bool.or_eq_true, List.contains_iff_mem]

theorem unquotedL_append (a b : List Val) : unquotedL (a ++ b) = unquotedL a ++ unquotedL b := by
  induction a with
  | nil => rfl
  | cons v a ih => simp [unquotedL, ih]

/-- No unused token comes out unquoted. -/
def bareG (tab : CRule → Bool) : Gr → Bool
  | .eps => true
  | .raw s => !unusedB s
  | .any .token => false
  | .any .zoiDelimiter => true
  | .any .zoiText => true
  | .call r => tab r
  | .seq a b => bareG tab a && bareG tab b
  | .alt a b => bareG tab a && bareG tab b
  | .opt a => bareG tab a
  | .many0 a => bareG tab a
  | .many1 a => bareG tab a
  | .manyTill a b => bareG tab a && bareG tab b
  | .not _ => true
  | .cut a => bareG tab a
  | .mustConsume _ a => bareG tab a
  | .postCond _ a => bareG tab a
  | .wrap (.node n) a => quoting.contains n || bareG tab a
  | .wrap _ a => bareG tab a

/-- None of these tokens is unused. -/
def Quiet (toks : List Token) : Prop := ∀ t ∈ toks, ¬ Unused t.selmaho

theorem Quiet.append {a b : List Token} (ha : Quiet a) (hb : Quiet b) : Quiet (a ++ b) := by
  intro t ht
  rcases List.mem_append.mp ht with ht | ht
  · exact ha t ht
  · exact hb t ht

theorem Quiet.nil : Quiet [] := nofun

theorem quiet_flatten {items : List (List Val)} (h : ∀ vs ∈ items, Quiet (unquotedL vs)) : Quiet (unquotedL items.flatten) := by
  induction items with
  | nil => exact Quiet.nil
  | cons v items ih =>
    rw [List.flatten_cons, unquotedL_append]
    exact (h v (by simp)).append (ih (fun w hw => h w (by simp [hw])))

theorem unquoted_build {sh : CShape} {vs : List Val} (h : ∀ n, sh = .node n → n ∉ quoting) :
    unquoted (sh.build vs) = unquotedL vs := by
  unfold CShape.build
  split
  · simp [unquoted, h _ rfl]
  · simp [unquoted]
  · simp [unquoted, unquotedL]
  · simp [unquoted]

theorem formed_quiet {g : CRule → Gr} {tab : CRule → Bool} (hg : ∀ r, tab r = true → bareG tab (g r) = true)
    {e : Gr} {vs : List Val} (h : Formed g e vs) : bareG tab e = true → Quiet (unquotedL vs) := by
  induction h with
  | eps => intro _; exact Quiet.nil
  | raw ht =>
    intro h t' ht'
    simp only [unquotedL, unquoted, List.append_nil, List.mem_singleton] at ht'
    subst ht'
    simp only [bareG, Bool.not_eq_true'] at h
    rw [ht, ← unusedB_iff, h]
    simp
  | @any k t =>
    intro h
    cases k with
    | token => simp [bareG] at h
    | zoiDelimiter => simp [unquotedL, unquoted, Quiet]
    | zoiText => simp [unquotedL, unquoted, Quiet]
  | call _ ih => intro h; exact ih (hg _ h)
  | seq _ _ iha ihb =>
    intro h
    simp only [bareG, Bool.and_eq_true] at h
    rw [unquotedL_append]
    exact (iha h.1).append (ihb h.2)
  | altLeft _ ih => intro h; simp only [bareG, Bool.and_eq_true] at h; exact ih h.1
  | altRight _ ih => intro h; simp only [bareG, Bool.and_eq_true] at h; exact ih h.2
  | absent => intro _; simp [unquotedL, unquoted, Quiet]
  | present _ ih => intro h; simpa [unquotedL, unquoted] using ih h
  | many0 _ ih => intro h; simpa [unquotedL, unquoted] using quiet_flatten (fun vs hv => ih vs hv h)
  | many1 _ _ ih => intro h; simpa [unquotedL, unquoted] using quiet_flatten (fun vs hv => ih vs hv h)
  | manyTill _ _ ih ih' =>
    intro h
    simp only [bareG, Bool.and_eq_true] at h
    simpa [unquotedL, unquoted] using (quiet_flatten (fun vs hv => ih vs hv h.1)).append (ih' h.2)
  | not => intro _; exact Quiet.nil
  | cut _ ih => exact ih
  | mustConsume _ _ ih => exact ih
  | postCond _ _ ih => exact ih
  | @wrap sh a vs _ ih =>
    intro h
    by_cases hq : ∃ n, sh = .node n ∧ n ∈ quoting
    · obtain ⟨n, rfl, hn⟩ := hq
      simp [unquotedL, unquoted, CShape.build, hn, Quiet]
    · have hn : ∀ n, sh = .node n → n ∉ quoting := fun n h1 h2 => hq ⟨n, h1, h2⟩
      simp only [unquotedL, List.append_nil]
      rw [unquoted_build hn]
      apply ih
      cases sh with
      | node n =>
        simp only [bareG, Bool.or_eq_true, List.contains_iff_mem] at h
        exact h.resolve_left (hn n rfl)
      | _ => simpa [bareG] using h

/-- The productions a text makes use of. -/
def usedRule : CRule → Bool
  | .word s => !unusedB s
  | _ => true

theorem cst_quiet (r : CRule) (h : usedRule r = true) : bareG usedRule (cst r) = true := by
  revert h
  cases r with
  | word s => cases s <;> decide +kernel
  | _ => decide +kernel

/-! ### The same for token sequences -/

/-- Every success contains a token of one of the selma'o `ts`. -/
def takesG (ts : List Selmaho) (tab : CRule → Bool) : Gr → Bool
  | .raw s => ts.contains s
  | .call r => tab r
  | .seq a b => takesG ts tab a || takesG ts tab b
  | .alt a b => takesG ts tab a && takesG ts tab b
  | .many1 a => takesG ts tab a
  | .manyTill _ b => takesG ts tab b
  | .cut a => takesG ts tab a
  | .mustConsume _ a => takesG ts tab a
  | .postCond _ a => takesG ts tab a
  | .wrap _ a => takesG ts tab a
  | _ => false

theorem formed_takes {g : CRule → Gr} {ts : List Selmaho} {tab : CRule → Bool}
    (hg : ∀ r, tab r = true → takesG ts tab (g r) = true)
    {e : Gr} {vs : List Val} (h : Formed g e vs) : takesG ts tab e = true → ∃ t ∈ tokensL vs, t.selmaho ∈ ts := by
  induction h with
  | raw ht => intro h; simp [takesG] at h; subst ht; exact ⟨_, by simp [tokensL, tokens], h⟩
  | call _ ih => intro h; exact ih (hg _ h)
  | seq _ _ iha ihb =>
    intro h
    simp only [takesG, Bool.or_eq_true] at h
    rcases h with h | h
    · obtain ⟨t, ht, hs⟩ := iha h
      exact ⟨t, by rw [tokensL_append]; exact List.mem_append_left _ ht, hs⟩
    · obtain ⟨t, ht, hs⟩ := ihb h
      exact ⟨t, by rw [tokensL_append]; exact List.mem_append_right _ ht, hs⟩
  | altLeft _ ih => intro h; simp only [takesG, Bool.and_eq_true] at h; exact ih h.1
  | altRight _ ih => intro h; simp only [takesG, Bool.and_eq_true] at h; exact ih h.2
  | @many1 _ items hne _ ih =>
    intro h
    cases items with
    | nil => exact absurd rfl hne
    | cons w items =>
      obtain ⟨t, ht, hs⟩ := ih w (by simp) h
      exact ⟨t, by simpa [tokensL, tokens] using tokensL_flatten (items := w :: items) (by simp) ht, hs⟩
  | manyTill _ _ _ ih =>
    intro h
    obtain ⟨t, ht, hs⟩ := ih h
    exact ⟨t, by simp [tokensL, ht], hs⟩
  | cut _ ih => exact ih
  | mustConsume _ _ ih => exact ih
  | postCond _ _ ih => exact ih
  | wrap _ ih =>
    intro h
    obtain ⟨t, ht, hs⟩ := ih h
    exact ⟨t, by simpa [tokensL, tokens_build] using ht, hs⟩
  | _ => intro h; simp [takesG] at h

/-- Only tokens of selma'o that satisfy `ok` come out, unless there is one of `ts` among them, and unless they come out of
one of the productions `tab` allows. -/
def safeG (ts : List Selmaho) (ok : Selmaho → Bool) (takes tab : CRule → Bool) : Gr → Bool
  | .eps => true
  | .raw s => ok s
  | .any _ => false
  | .call r => takes r || tab r
  | .seq a b => takesG ts takes a || takesG ts takes b || (safeG ts ok takes tab a && safeG ts ok takes tab b)
  | .alt a b => safeG ts ok takes tab a && safeG ts ok takes tab b
  | .opt a => safeG ts ok takes tab a
  | .many0 a => safeG ts ok takes tab a
  | .many1 a => safeG ts ok takes tab a
  | .manyTill a b => takesG ts takes b || (safeG ts ok takes tab a && safeG ts ok takes tab b)
  | .not _ => true
  | .cut a => safeG ts ok takes tab a
  | .mustConsume _ a => safeG ts ok takes tab a
  | .postCond _ a => safeG ts ok takes tab a
  | .wrap _ a => safeG ts ok takes tab a

/-- There is one of `ts` among the tokens, or `P` holds of them. -/
def Safe (ts : List Selmaho) (P : List Token → Prop) (toks : List Token) : Prop := (∃ t ∈ toks, t.selmaho ∈ ts) ∨ P toks

/-- A property of token sequences that can be checked piece by piece. -/
structure Piecewise (P : List Token → Prop) : Prop where
  nil : P []
  append : ∀ {a b : List Token}, P a → P b → P (a ++ b)

theorem Safe.append {ts : List Selmaho} {P : List Token → Prop} (hP : Piecewise P) {a b : List Token}
    (ha : Safe ts P a) (hb : Safe ts P b) : Safe ts P (a ++ b) := by
  rcases ha with ⟨t, ht, hs⟩ | ha
  · exact .inl ⟨t, by simp [ht], hs⟩
  · rcases hb with ⟨t, ht, hs⟩ | hb
    · exact .inl ⟨t, by simp [ht], hs⟩
    · exact .inr (hP.append ha hb)

theorem safe_flatten {ts : List Selmaho} {P : List Token → Prop} (hP : Piecewise P) {items : List (List Val)}
    (h : ∀ vs ∈ items, Safe ts P (tokensL vs)) : Safe ts P (tokensL items.flatten) := by
  induction items with
  | nil => exact .inr hP.nil
  | cons v items ih =>
    rw [List.flatten_cons, tokensL_append]
    exact (h v (by simp)).append hP (ih (fun w hw => h w (by simp [hw])))

/-- `base` are productions for which `P` is known otherwise. -/
theorem formed_safe {g : CRule → Gr} {ts : List Selmaho} {P : List Token → Prop} (hP : Piecewise P) {ok : Selmaho → Bool}
    (hok : ∀ t : Token, ok t.selmaho = true → P [t]) {takes tab base : CRule → Bool}
    (ht : ∀ r, takes r = true → takesG ts takes (g r) = true)
    (hb : ∀ r vs, base r = true → Formed g (g r) vs → Safe ts P (tokensL vs))
    (hg : ∀ r, tab r = true → base r = false → safeG ts ok takes tab (g r) = true)
    {e : Gr} {vs : List Val} (h : Formed g e vs) : safeG ts ok takes tab e = true → Safe ts P (tokensL vs) := by
  induction h with
  | eps => intro _; exact .inr hP.nil
  | @raw s t hs =>
    intro h
    subst hs
    exact .inr (hok t h)
  | any => intro h; simp [safeG] at h
  | @call r _ hf ih =>
    intro h
    simp only [safeG, Bool.or_eq_true] at h
    rcases h with h | h
    · exact .inl (formed_takes ht hf (ht _ h))
    · cases hbr : base r with
      | true => exact hb r _ hbr hf
      | false => exact ih (hg _ h hbr)
  | seq ha hb iha ihb =>
    intro h
    simp only [safeG, Bool.or_eq_true, Bool.and_eq_true] at h
    rw [tokensL_append]
    rcases h with (h | h) | h
    · obtain ⟨t, h1, h2⟩ := formed_takes ht ha h
      exact .inl ⟨t, by simp [h1], h2⟩
    · obtain ⟨t, h1, h2⟩ := formed_takes ht hb h
      exact .inl ⟨t, by simp [h1], h2⟩
    · exact (iha h.1).append hP (ihb h.2)
  | altLeft _ ih => intro h; simp only [safeG, Bool.and_eq_true] at h; exact ih h.1
  | altRight _ ih => intro h; simp only [safeG, Bool.and_eq_true] at h; exact ih h.2
  | absent => intro _; exact .inr (by simpa [tokensL, tokens] using hP.nil)
  | present _ ih => intro h; simpa [tokensL, tokens] using ih h
  | many0 _ ih => intro h; simpa [tokensL, tokens] using safe_flatten hP (fun vs hv => ih vs hv h)
  | many1 _ _ ih => intro h; simpa [tokensL, tokens] using safe_flatten hP (fun vs hv => ih vs hv h)
  | manyTill _ hb ih ih' =>
    intro h
    simp only [safeG, Bool.or_eq_true, Bool.and_eq_true] at h
    rcases h with h | h
    · obtain ⟨t, h1, h2⟩ := formed_takes ht hb h
      exact .inl ⟨t, by simp [tokensL, h1], h2⟩
    · simpa [tokensL, tokens] using (safe_flatten hP (fun vs hv => ih vs hv h.1)).append hP (ih' h.2)
  | not => intro _; exact .inr hP.nil
  | cut _ ih => exact ih
  | mustConsume _ _ ih => exact ih
  | postCond _ _ ih => exact ih
  | wrap _ ih => intro h; simpa [tokensL, tokens_build] using ih h

/-! #### Unused words -/

/-- The words that take other words as they come. -/
def takers : List Selmaho := [.Zo, .Zoi, .Lohu, .Zei, .Bu]

/-- The productions that contain one of `takers`. -/
def takesRule : CRule → Bool
  | .word s => takers.contains s
  | .ZoSumti => true
  | .ZoiSumti => true
  | .LohuSumti => true
  | .ZeiTail => true
  | _ => false

/-- The productions in which each unused word comes with one of `takers`. -/
def safeRule : CRule → Bool
  | .word s => !unusedB s
  | .BuInner => false
  | .ZoiDelimiter => false
  | .ZoiText => false
  | _ => true

theorem cst_takes (r : CRule) (h : takesRule r = true) : takesG takers takesRule (cst r) = true := by
  revert h
  cases r with
  | word s => cases s <;> decide +kernel
  | _ => decide +kernel

theorem cst_safe (r : CRule) (h : safeRule r = true) :
    safeG takers (fun s => !unusedB s) takesRule safeRule (cst r) = true := by
  revert h
  cases r with
  | word s => cases s <;> decide +kernel
  | _ => decide +kernel

theorem quiet_piecewise : Piecewise Quiet := ⟨Quiet.nil, Quiet.append⟩

theorem quiet_single (t : Token) (h : (!unusedB t.selmaho) = true) : Quiet [t] := by
  intro t' ht'
  simp only [List.mem_singleton] at ht'
  subst ht'
  simp only [Bool.not_eq_true'] at h
  rw [← unusedB_iff, h]
  simp

theorem text_safe {vs : List Val} (h : Formed cst (.call .Text) vs) : Safe takers Quiet (tokensL vs) :=
  formed_safe (base := fun _ => false) quiet_piecewise quiet_single cst_takes (fun _ _ h => by cases h)
    (fun r h _ => cst_safe r h) h (by decide)

/-! #### Delimited quotes -/

/-- The same without `zoi`. -/
def takers' : List Selmaho := [.Zo, .Lohu, .Zei, .Bu]

theorem quotedByFour_piecewise : Piecewise QuotedByFour := by
  refine ⟨.nil, ?_⟩
  intro a b ha hb
  induction ha with
  | nil => exact hb
  | word h1 h2 _ ih => exact .word h1 h2 ih
  | quote h1 _ ih => exact .quote h1 ih

def takesRule' : CRule → Bool
  | .word s => takers'.contains s
  | .ZoSumti => true
  | .LohuSumti => true
  | .ZeiTail => true
  | _ => false

def safeRule' : CRule → Bool
  | .word s => !unusedB s && s != .Zoi
  | .BuInner => false
  | .ZoiDelimiter => false
  | .ZoiText => false
  | _ => true

theorem cst_takes' (r : CRule) (h : takesRule' r = true) : takesG takers' takesRule' (cst r) = true := by
  revert h
  cases r with
  | word s => cases s <;> decide +kernel
  | _ => decide +kernel

theorem cst_safe' (r : CRule) (h : safeRule' r = true) (hz : (r == .ZoiSumti) = false) :
    safeG takers' (fun s => !unusedB s && s != .Zoi) takesRule' safeRule' (cst r) = true := by
  revert h hz
  cases r with
  | word s => cases s <;> decide +kernel
  | _ => decide +kernel

theorem formed_zoi {vs : List Val} (h : Formed cst (cst .ZoiSumti) vs) : QuotedByFour (tokensL vs) := by
  have hz : cst (.word .Zoi) = .seq (.raw .Zoi) (.seq (.not (.call (.word .Bu))) (.not (.call (.word .Zei)))) := rfl
  have hd : cst .ZoiDelimiter = .any .zoiDelimiter := rfl
  have ht : cst .ZoiText = .any .zoiText := rfl
  have he : cst .ZoiSumti = .wrap (.node .ZoiSumti) (.seq (.call (.word .Zoi)) (.seq (.call .ZoiDelimiter)
    (.seq (.call .ZoiText) (.call .ZoiDelimiter)))) := rfl
  rw [he] at h
  cases h with
  | wrap h =>
    cases h with
    | seq h1 h =>
      cases h with
      | seq h2 h =>
        cases h with
        | seq h3 h4 =>
          cases h1 with
          | call h1 =>
            rw [hz] at h1
            cases h1 with
            | seq h1 h5 =>
              cases h5 with
              | seq h5 h6 =>
                cases h5
                cases h6
                cases h1 with
                | raw hs =>
                  cases h2 with
                  | call h2 =>
                    rw [hd] at h2
                    cases h2
                    cases h3 with
                    | call h3 =>
                      rw [ht] at h3
                      cases h3
                      cases h4 with
                      | call h4 =>
                        rw [hd] at h4
                        cases h4
                        simp only [tokensL, tokens_build, tokens, List.append_nil, List.cons_append, List.nil_append]
                        exact .quote hs .nil

theorem word_single (t : Token) (h : (!unusedB t.selmaho && t.selmaho != .Zoi) = true) : QuotedByFour [t] := by
  simp only [Bool.and_eq_true, bne_iff_ne, ne_eq] at h
  refine .word (quiet_single t h.1 t (by simp)) h.2 .nil

theorem text_quoted {vs : List Val} (h : Formed cst (.call .Text) vs) : Safe takers' QuotedByFour (tokensL vs) :=
  formed_safe (base := fun r => r == .ZoiSumti) quotedByFour_piecewise word_single cst_takes'
    (fun r vs hr hf => by
      simp only [beq_iff_eq] at hr
      subst hr
      exact .inr (formed_zoi hf))
    (fun r h h' => cst_safe' r h h') h (by decide)

end Sneturfahi
