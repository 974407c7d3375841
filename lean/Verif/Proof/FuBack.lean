import Verif.Proof.FuWord

/-!
# What the rule for fu'ivla matches is a sequence of sounds
-/

namespace Sneturfahi.Fu

set_option linter.constructorNameAsVariable false
set_option linter.unusedSimpArgs false

open Derives Spec Names Props
open Lj (C V D Y Q isL Bare0 isYLetter)

attribute [local irreducible] parseRule
attribute [-simp] text_cons text_nil text_append

/-! ### One sound at the front -/

section
variable {cs m : List Char} {s : List Sound}

theorem peek_back {rule p : Rule} {chs : List Char} (hgr : grammar rule = .andPeek (.oneOf chs) (.call p)) (hcs : ',' ∉ cs)
    (hp : parseRule rule cs = some (m, text s)) : ∃ c ∈ chs, m = [c] ∧ parseRule p (text s) ≠ none := by
  cases cs with
  | nil => rw [peek_nil hgr] at hp; cases hp
  | cons a t =>
    have ha : a ≠ ',' := by rintro rfl; simp at hcs
    rw [peek_cons hgr ha] at hp
    split at hp
    · rename_i h1
      simp only [Option.some.injEq, Prod.mk.injEq] at hp
      obtain ⟨rfl, rfl⟩ := hp
      exact ⟨a, h1.1, rfl, h1.2⟩
    · cases hp

theorem vow_back (hg : Names.Good s) (hne : parseRule .nucleus (text s) ≠ none) : ∃ g t, s = .vowels g :: t := by
  rw [(reads hg).nucleus] at hne
  match s with
  | [] => exact absurd rfl hne
  | .vowels g :: t => exact ⟨g, t, rfl⟩
  | .glide _ :: t | .apostrophe _ :: t | .consonant _ :: t | .digit _ :: t => simp [out, isVowels] at hne

theorem nucleus_back (hcs : ',' ∉ cs) (hg : Names.Good s) (hp : parseRule .nucleus cs = some (m, text s)) :
    Names.Good (.vowels m :: s) := by
  have hm : ',' ∉ m := by rw [← parseRule_append hp] at hcs; intro h; exact hcs (by simp [h])
  have hmn : noCommas m = m := by
    unfold noCommas
    rw [List.filter_eq_self]
    intro a ha
    simp
    rintro rfl
    exact hm ha
  have hv := nucleus_inv hp
  rw [hmn] at hv
  refine ⟨hv, ?_, trivial, hg⟩
  have he := nucleus_end hp
  rw [(reads hg).nucleus] at he
  match s with
  | [] => exact ⟨rfl, rfl⟩
  | .vowels g :: t => simp [out, isVowels] at he
  | .glide _ :: t | .apostrophe _ :: t | .consonant _ :: t | .digit _ :: t => trivial

theorem glide_back (hcs : ',' ∉ cs) (hg : Names.Good s) (hp : parseRule .glide cs = some (m, text s)) : ∃ c, m = [c] ∧ Names.Good (.glide c :: s) := by
  have hsub : ∀ c ∈ c!"iIuU", c ∈ c!"iuIU" := by decide
  obtain ⟨c, hc, rfl, hne⟩ := peek_back glide_body hcs hp
  obtain ⟨g, t, rfl⟩ := vow_back hg hne
  exact ⟨c, rfl, hsub c hc, trivial, trivial, hg⟩

theorem h_back (hcs : ',' ∉ cs) (hg : Names.Good s) (hp : parseRule .h cs = some (m, text s)) : ∃ c, m = [c] ∧ Names.Good (.apostrophe c :: s) := by
  obtain ⟨c, hc, rfl, hne⟩ := peek_back h_body hcs hp
  obtain ⟨g, t, rfl⟩ := vow_back hg hne
  exact ⟨c, rfl, hc, trivial, trivial, hg⟩

theorem letter_back {L : Rule} (hL : L ∈ letterRules) (hcs : ',' ∉ cs) (hg : Names.Good s) (hp : parseRule L cs = some (m, text s)) :
    ∃ c, m = [c] ∧ Names.Good (.consonant c :: s) := by
  have hrd := reads hg
  obtain ⟨c, hc, rfl, _, hb⟩ := not_some (letter_body L hL) hcs hp
  obtain ⟨_, ah, ag, _⟩ := letter_alts L hL
  have hd := (andNot_inv (by have := call_inv (derives_iff.mpr hp); rw [letter_body L hL] at this; exact this)).2
  have hbl := blockers_fail hd
  have hh := hb _ ah
  have hgl := hb _ ag
  rw [hrd.h] at hh
  rw [hrd.glide] at hgl
  refine ⟨c, rfl, letters_consonant L hL c hc, ?_, ?_, hg⟩
  · match s with
    | [] => exact ⟨rfl, rfl⟩
    | .vowels _ :: t => trivial
    | .digit _ :: t => trivial
    | .glide _ :: t => simp [out, isGlide] at hgl
    | .apostrophe _ :: t => simp [out, isQuote] at hh
    | .consonant d :: t =>
      obtain ⟨D, hD, hdm⟩ := consonants_letter d hg.1
      refine pair_table L hL D hD (fun hb => ?_) c hc d hdm
      have := hbl D hb
      rw [hrd.letter D hD] at this
      simp [out, isLetter, hdm] at this
  · match s with
    | [] => trivial
    | .vowels _ :: t | .digit _ :: t | .glide _ :: t | .apostrophe _ :: t => trivial
    | [.consonant d] => trivial
    | .consonant _ :: .vowels _ :: t | .consonant _ :: .digit _ :: t | .consonant _ :: .glide _ :: t | .consonant _ :: .apostrophe _ :: t => trivial
    | .consonant d :: .consonant e :: t =>
      intro hbad
      have hrd' := reads hg.2.2.2
      obtain ⟨D, hD, hdm⟩ := consonants_letter d hg.1
      obtain ⟨E, hE, hem⟩ := consonants_letter e hg.2.2.2.1
      have hpD := hrd.letter D hD
      have hpE := hrd'.letter E hE
      simp only [out, isLetter, List.contains_iff_mem, hdm, hem, if_true] at hpD hpE
      simp only [forbiddenTriples, List.mem_cons, List.cons.injEq, and_true, List.not_mem_nil, or_false] at hbad
      have hn : lower c = 'n' := by rcases hbad with h | h | h | h <;> exact h.1
      obtain rfl := (n_only L hL).1 c hc hn
      have haff : parseRule .affricate (text (.consonant d :: .consonant e :: t)) = none := hbl .affricate (by decide +kernel)
      have haf := affricate_fail (m := [d]) (r := text (.consonant e :: t)) haff
      obtain ⟨_, ft, fd, fc, fs, fj, fz⟩ := n_only D hD
      obtain ⟨_, _, _, gc, gs, gj, gz⟩ := n_only E hE
      rcases hbad with ⟨_, h2, h3⟩ | ⟨_, h2, h3⟩ | ⟨_, h2, h3⟩ | ⟨_, h2, h3⟩
      · obtain rfl := fd d hdm h2; obtain rfl := gj e hem h3; rw [(haf.2 hpD).1] at hpE; cases hpE
      · obtain rfl := fd d hdm h2; obtain rfl := gz e hem h3; rw [(haf.2 hpD).2] at hpE; cases hpE
      · obtain rfl := ft d hdm h2; obtain rfl := gc e hem h3; rw [(haf.1 hpD).1] at hpE; cases hpE
      · obtain rfl := ft d hdm h2; obtain rfl := gs e hem h3; rw [(haf.1 hpD).2] at hpE; cases hpE

end

/-! ### Backwards through the rules -/

def backLeaf : Rule → Bool
  | .nucleus | .glide | .h => true
  | r => letterRules.contains r

def backRule (r : Rule) : Bool := backLeaf r || [Rule.consonant, .voiced, .unvoiced, .liquid, .syllabic, .affricate, .sibilant, .other, .initial, .onset, .coda, .consonantal_syllable,
  .syllable, .unstressed_syllable, .stressed_syllable, .explicitly_stressed_syllable, .final_syllable, .brivla_head, .fuhivla_head].contains r

def okB : Exp Rule → Bool
  | .null => true
  | .eof => true
  | .oneOf _ => false
  | .call r => backRule r
  | .not _ => true
  | .peek _ => true
  | .alt a b => okB a && okB b
  | .longest _ _ => false
  | .seq a b => okB a && okB b
  | .rep _ e => okB e
  | .andPeek e _ => okB e
  | .andNot e _ => okB e
  | .guardNot _ e => okB e

theorem okB_body : ∀ r : Rule, backRule r = true → backLeaf r = false → okB (grammar r) = true := by
  intro r
  cases r <;> first | (intro h; cases h; done) | (intro _ h; cases h; done) | (intro _ _; rfl)

theorem leaf_back {r : Rule} (hr : backLeaf r = true) {cs m : List Char} {s : List Sound} (hcs : ',' ∉ cs) (hg : Names.Good s)
    (hp : parseRule r cs = some (m, text s)) : ∃ a, m = text a ∧ Names.Good (a ++ s) ∧ ∀ c, Sound.digit c ∉ a := by
  have letter : letterRules.contains r = true → ∃ a, m = text a ∧ Names.Good (a ++ s) ∧ ∀ c, Sound.digit c ∉ a := by
    intro hL
    obtain ⟨c, rfl, h⟩ := letter_back (List.contains_iff_mem.mp hL) hcs hg hp
    exact ⟨[.consonant c], by simp [text_cons, text_nil, Sound.letters], h, by simp⟩
  have nuc : r = .nucleus → ∃ a, m = text a ∧ Names.Good (a ++ s) ∧ ∀ c, Sound.digit c ∉ a := by
    rintro rfl
    exact ⟨[.vowels m], by simp [text_cons, text_nil, Sound.letters], nucleus_back hcs hg hp, by simp⟩
  have gli : r = .glide → ∃ a, m = text a ∧ Names.Good (a ++ s) ∧ ∀ c, Sound.digit c ∉ a := by
    rintro rfl
    obtain ⟨c, rfl, h⟩ := glide_back hcs hg hp
    exact ⟨[.glide c], by simp [text_cons, text_nil, Sound.letters], h, by simp⟩
  have quo : r = .h → ∃ a, m = text a ∧ Names.Good (a ++ s) ∧ ∀ c, Sound.digit c ∉ a := by
    rintro rfl
    obtain ⟨c, rfl, h⟩ := h_back hcs hg hp
    exact ⟨[.apostrophe c], by simp [text_cons, text_nil, Sound.letters], h, by simp⟩
  clear hp
  cases r <;> first
    | exact letter hr
    | exact nuc rfl
    | exact gli rfl
    | exact quo rfl

theorem back {e : Exp Rule} {cs : List Char} {res : Res} (h : Derives grammar e cs res) : okB e = true → ',' ∉ cs → ∀ m r, res = some (m, r) →
    ∀ s, Names.Good s → r = text s → ∃ a, m = text a ∧ Names.Good (a ++ s) ∧ ∀ c, Sound.digit c ∉ a := by
  have stay : ∀ (m : List Char) (s : List Sound), m = [] → Names.Good s → ∃ a, m = text a ∧ Names.Good (a ++ s) ∧ ∀ c, Sound.digit c ∉ a :=
    fun m s e hg => ⟨[], e, hg, by simp⟩
  have two : ∀ {a b : Exp Rule} {cs m rest : List Char} {res : Res}, Derives grammar a cs (some (m, rest)) → Derives grammar b rest res → ',' ∉ cs →
      (∀ s, Names.Good s → rest = text s → ∃ a, m = text a ∧ Names.Good (a ++ s) ∧ ∀ c, Sound.digit c ∉ a) →
      (',' ∉ rest → ∀ m r, res = some (m, r) → ∀ s, Names.Good s → r = text s → ∃ a, m = text a ∧ Names.Good (a ++ s) ∧ ∀ c, Sound.digit c ∉ a) →
      ∀ m' r, res.prepend m = some (m', r) → ∀ s, Names.Good s → r = text s → ∃ a, m' = text a ∧ Names.Good (a ++ s) ∧ ∀ c, Sound.digit c ∉ a := by
    intro a b cs m rest res h1 h2 hcs iha ihb m' r hres s hg hr
    obtain ⟨m2, h3, rfl⟩ := Res.prepend_some hres
    subst h3
    have hap := h1.append_eq _ _ rfl
    have hrest : ',' ∉ rest := by rw [← hap] at hcs; intro h; exact hcs (by simp [h])
    obtain ⟨b, rfl, hgb, hdb⟩ := ihb hrest _ _ rfl s hg hr
    have hap2 := h2.append_eq _ _ rfl
    have hrs : rest = text (b ++ s) := by rw [text_append, ← hap2, hr]
    obtain ⟨a, rfl, hga, hda⟩ := iha _ hgb hrs
    refine ⟨a ++ b, by rw [text_append], by simpa using hga, ?_⟩
    intro c hc
    rcases List.mem_append.mp hc with hc | hc
    · exact hda c hc
    · exact hdb c hc
  induction h with
  | null => intro _ _ m r h s hg hr; cases h; exact stay _ s rfl hg
  | eofYes => intro _ _ m r h s hg hr; cases h; exact stay _ s rfl hg
  | oneOfYes => intro h; cases h
  | @call r cs res hd ih =>
    intro hok hcs m t hres s hg hr
    cases hl : backLeaf r with
    | true =>
      have hp : parseRule r cs = some (m, text s) := by rw [← hr, ← hres]; exact derives_iff.mp (Derives.call hd)
      exact leaf_back hl hcs hg hp
    | false => exact ih (okB_body r hok hl) hcs m t hres s hg hr
  | notYes => intro _ _ m r h s hg hr; cases h; exact stay _ s rfl hg
  | peekYes => intro _ _ m r h s hg hr; cases h; exact stay _ s rfl hg
  | altL _ ih => intro hok; exact ih (Bool.and_eq_true _ _ ▸ hok).1
  | altR _ _ _ ih => intro hok; exact ih (Bool.and_eq_true _ _ ▸ hok).2
  | longest => intro h; cases h
  | seqGo h1 h2 iha ihb =>
    intro hok hcs
    exact two h1 h2 hcs (iha (Bool.and_eq_true _ _ ▸ hok).1 hcs _ _ rfl) (ihb (Bool.and_eq_true _ _ ▸ hok).2)
  | repStop => intro _ _ m r h s hg hr; cases h; exact stay _ s rfl hg
  | repStep h1 h2 iha ihb =>
    intro hok hcs
    exact two h1 h2 hcs (iha hok hcs _ _ rfl) (ihb hok)
  | andPeekYes _ _ ih => intro hok hcs m r h; cases h; exact ih hok hcs _ _ rfl
  | andNotYes _ _ ih => intro hok hcs m r h; cases h; exact ih hok hcs _ _ rfl
  | guardGo _ _ _ ih => intro hok; exact ih hok
  | _ => intro _ _ m r h; cases h

/-- What the rule for fu'ivla matches. -/
theorem fuhivla_back {cs : List Char} (hcs : ',' ∉ cs) (h : parseRule .fuhivla cs = some (cs, [])) :
    ∃ a g, cs = text (a ++ [.vowels g]) ∧ Names.Good (a ++ [.vowels g]) ∧ ∀ c, Sound.digit c ∉ a := by
  have rest : ∀ {m r u : List Char}, u = m ++ r → ',' ∉ u → ',' ∉ r := by intro m r u e hu h; exact hu (by rw [e]; simp [h])
  have hd : Derives grammar (.seq (.call .fuhivla_head) (.seq (.call .stressed_syllable) (.seq (.rep 0 (.call .consonantal_syllable)) (.call .final_syllable))))
      cs (some (cs, [])) := call_inv (derives_iff.mpr h)
  obtain ⟨m1, r1, n1, d1, hd, e1⟩ := seq_inv hd
  have c1 := rest (d1.append_eq _ _ rfl).symm hcs
  obtain ⟨m2, r2, n2, d2, hd, e2⟩ := seq_inv hd
  have c2 := rest (d2.append_eq _ _ rfl).symm c1
  obtain ⟨m3, r3, n3, d3, hd, e3⟩ := seq_inv hd
  have c3 := rest (d3.append_eq _ _ rfl).symm c2
  have hd : Derives grammar (.seq (.call .onset) (.seq (.not (.call .y)) (.seq (.not (.call .stressed)) (.seq (.call .nucleus) (.seq (.not (.call .cmevla)) (.peek (.call .post_word)))))))
      r3 (some (n3, [])) := call_inv hd
  obtain ⟨m4, r4, n4, d4, hd, e4⟩ := seq_inv hd
  have c4 := rest (d4.append_eq _ _ rfl).symm c3
  obtain ⟨m5, r5, n5, d5, hd, e5⟩ := seq_inv hd
  have c5 := rest (d5.append_eq _ _ rfl).symm c4
  obtain ⟨m6, r6, n6, d6, hd, e6⟩ := seq_inv hd
  have c6 := rest (d6.append_eq _ _ rfl).symm c5
  obtain ⟨m7, r7, n7, d7, hd, e7⟩ := seq_inv hd
  have k0 : ∀ {e : Exp Rule} {u m r : List Char}, Derives grammar (.not e) u (some (m, r)) → m = [] ∧ r = u := by
    intro e u m r h
    cases h
    exact ⟨rfl, rfl⟩
  have k1 : ∀ {e : Exp Rule} {u m r : List Char}, Derives grammar (.peek e) u (some (m, r)) → m = [] ∧ r = u := by
    intro e u m r h
    cases h
    exact ⟨rfl, rfl⟩
  obtain ⟨m8, r8, n8, d8, d9, e8⟩ := seq_inv hd
  obtain ⟨z1, z2⟩ := k1 d9
  clear hd
  obtain ⟨rfl, rfl⟩ := k0 d8
  subst z2
  obtain ⟨rfl, rfl⟩ := k0 d5
  obtain ⟨rfl, rfl⟩ := k0 d6
  have g1 : Names.Good [.vowels m7] := nucleus_back c6 (s := []) trivial (derives_iff.mp d7)
  have hap : r6 = text [.vowels m7] := by
    rw [← d7.append_eq _ _ rfl]
    simp [text_cons, text_nil, Sound.letters]
  obtain ⟨a4, rfl, g4, n4⟩ := back d4 rfl c3 _ _ rfl _ g1 hap
  have hap : r3 = text (a4 ++ [.vowels m7]) := by rw [text_append, ← hap, ← d4.append_eq _ _ rfl]
  obtain ⟨a3, rfl, g3, n3⟩ := back d3 rfl c2 _ _ rfl _ g4 hap
  have hap : r2 = text (a3 ++ (a4 ++ [.vowels m7])) := by rw [text_append, ← hap, ← d3.append_eq _ _ rfl]
  obtain ⟨a2, rfl, g2, n2⟩ := back d2 rfl c1 _ _ rfl _ g3 hap
  have hap : r1 = text (a2 ++ (a3 ++ (a4 ++ [.vowels m7]))) := by rw [text_append, ← hap, ← d2.append_eq _ _ rfl]
  obtain ⟨a1, rfl, g1, n1⟩ := back d1 rfl hcs _ _ rfl _ g2 hap
  have hap : cs = text (a1 ++ (a2 ++ (a3 ++ (a4 ++ [.vowels m7])))) := by rw [text_append, ← hap, ← d1.append_eq _ _ rfl]
  refine ⟨a1 ++ a2 ++ a3 ++ a4, m7, by simpa using hap, by simpa using g1, ?_⟩
  intro c hc
  simp only [List.mem_append] at hc
  rcases hc with ((hc | hc) | hc) | hc
  · exact n1 c hc
  · exact n2 c hc
  · exact n3 c hc
  · exact n4 c hc

end Sneturfahi.Fu
