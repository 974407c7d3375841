import Verif.Proof.Decomposer

/-!
# Respellings that do not move word boundaries
-/

namespace Sneturfahi

/-- Two lists of the same length with related elements. -/
inductive Both {α β : Type} (T : α → β → Prop) : List α → List β → Prop
  | nil : Both T [] []
  | cons {a b as bs} : T a b → Both T as bs → Both T (a :: as) (b :: bs)

namespace Both

variable {α β : Type} {T : α → β → Prop}

theorem length_eq {as : List α} {bs : List β} (h : Both T as bs) : as.length = bs.length := by
  induction h with
  | nil => rfl
  | cons _ _ ih => simp [ih]

theorem append {as as' : List α} {bs bs' : List β} (h : Both T as bs) (h' : Both T as' bs') :
    Both T (as ++ as') (bs ++ bs') := by
  induction h with
  | nil => exact h'
  | cons h1 _ ih => exact .cons h1 ih

theorem dropLast {as : List α} {bs : List β} (h : Both T as bs) : Both T as.dropLast bs.dropLast := by
  induction h with
  | nil => exact .nil
  | cons h1 h2 ih =>
    cases h2 with
    | nil => exact .nil
    | cons h3 h4 => exact .cons h1 ih

theorem flatMap {γ δ : Type} {U : γ → δ → Prop} {f : α → List γ} {g : β → List δ} {as : List α} {bs : List β}
    (h : Both T as bs) (hfg : ∀ a b, T a b → Both U (f a) (g b)) : Both U (as.flatMap f) (bs.flatMap g) := by
  induction h with
  | nil => exact .nil
  | cons h1 _ ih => simp only [List.flatMap_cons]; exact (hfg _ _ h1).append ih

theorem mono {U : α → β → Prop} {as : List α} {bs : List β} (h : Both T as bs) (hTU : ∀ a b, T a b → U a b) :
    Both U as bs := by
  induction h with
  | nil => exact .nil
  | cons h1 _ ih => exact .cons (hTU _ _ h1) ih

end Both

/-- `S` relates remaining texts, `T` words. -/
structure WordSim (S T : List Char → List Char → Prop) : Prop where
  rules : ∀ rule {cs cs'}, S cs cs' → ResSim S (parseRule rule cs) (parseRule rule cs')
  cancel : ∀ {m r m' r'}, S (m ++ r) (m' ++ r') → S r r' → T m m'
  whole : ∀ {cs cs'}, S cs cs' → T cs cs'
  trim : ∀ {cs cs'}, S cs cs' → T (trimCommas cs) (trimCommas cs')
  trimNil : ∀ {cs cs'}, S cs cs' → (trimCommas cs = [] ↔ trimCommas cs' = [])
  ends : ∀ {cs cs'}, S cs cs' → endsInConsonant cs = endsInConsonant cs'

namespace WordSim

variable {S T : List Char → List Char → Prop}

theorem resSim_isSome {r r' : Res} (h : ResSim S r r') : r.isSome = r'.isSome := by
  cases r <;> cases r' <;> simp_all [ResSim]

theorem fallOff (ok : WordSim S T) {cs cs' : List Char} (h : S cs cs') :
    ResSim S (fallOffPure cs) (fallOffPure cs') := by
  have h1 := ok.rules .cmavo_minimal h
  have h2 := ok.rules .explicitly_stressed_brivla_minimal h
  unfold fallOffPure
  cases hc : parseRule .cmavo_minimal cs with
  | none => rw [hc] at h1; rw [h1.none_left]; exact h2
  | some x =>
    rw [hc] at h1
    obtain ⟨m', r', e, h3⟩ := h1.some_left
    rw [e]; exact h3

theorem postWord (ok : WordSim S T) {cs cs' : List Char} (h : S cs cs') :
    postWordPure cs = postWordPure cs' := by
  simp only [postWordPure, resSim_isSome (ok.rules .nucleus h), resSim_isSome (ok.rules .gismu h),
    resSim_isSome (ok.rules .fuhivla h), resSim_isSome (ok.rules .lujvo_minimal h),
    resSim_isSome (ok.rules .cmavo_minimal h)]

theorem falls (ok : WordSim S T) {cs cs' : List Char} (h : S cs cs') :
    Both T (falls cs).1 (falls cs').1 ∧ S (falls cs).2 (falls cs').2 ∧
      ∀ w w', (Sneturfahi.falls cs).1.getLast? = some w → (Sneturfahi.falls cs').1.getLast? = some w' →
        S (w ++ (Sneturfahi.falls cs).2) (w' ++ (Sneturfahi.falls cs').2) := by
  induction hn : cs.length using Nat.strongRecOn generalizing cs cs' with
  | ind n ih =>
    have hf := ok.fallOff h
    cases hc : fallOffPure cs with
    | none =>
      rw [hc] at hf
      rw [falls_none hc, falls_none hf.none_left]
      exact ⟨.nil, h, by simp⟩
    | some x =>
      obtain ⟨m, r⟩ := x
      rw [hc] at hf
      obtain ⟨m', r', e, h2⟩ := hf.some_left
      simp only at h2
      have ⟨i1, i2, i3⟩ := ih r.length (by rw [← hn]; exact fallOffPure_lt hc) h2 rfl
      rw [falls_some hc, falls_some e]
      have happ := fallOffPure_append hc
      have happ' := fallOffPure_append e
      have ht : T m m' := ok.cancel (by rw [happ, happ']; exact h) h2
      refine ⟨.cons ht i1, i2, ?_⟩
      intro w w' hw hw'
      simp only at hw hw' ⊢
      rw [List.getLast?_cons] at hw hw'
      cases hl : (Sneturfahi.falls r).1.getLast? with
      | none =>
        have hnil : (Sneturfahi.falls r).1 = [] := by simpa using hl
        have hnil' : (Sneturfahi.falls r').1 = [] := by
          have := i1.length_eq; rw [hnil] at this
          exact List.length_eq_zero_iff.mp this.symm
        rw [hnil] at hw
        rw [hnil'] at hw'
        simp at hw hw'
        subst hw hw'
        have e1 := falls_append r
        have e2 := falls_append r'
        rw [hnil] at e1
        rw [hnil'] at e2
        simp at e1 e2
        rw [e1, e2, happ, happ']
        exact h
      | some z =>
        cases hl' : (Sneturfahi.falls r').1.getLast? with
        | none =>
          exfalso
          have hnil' : (Sneturfahi.falls r').1 = [] := by simpa using hl'
          have := i1.length_eq
          rw [hnil'] at this
          have hnil := List.length_eq_zero_iff.mp this
          rw [hnil] at hl
          simp at hl
        | some z' =>
          rw [hl] at hw
          rw [hl'] at hw'
          simp at hw hw'
          subst hw hw'
          exact i3 _ _ hl hl'

theorem lastWord (ok : WordSim S T) {cs cs' : List Char} (h : S cs cs') :
    Both T (lastWord cs) (lastWord cs') := by
  unfold Sneturfahi.lastWord
  have h1 := ok.trimNil h
  have h2 := ok.trim h
  by_cases hn : trimCommas cs = []
  · rw [if_pos hn, if_pos (h1.mp hn)]; exact .nil
  · rw [if_neg hn, if_neg (fun hh => hn (h1.mpr hh))]; exact .cons h2 .nil

theorem singleWords (ok : WordSim S T) {cs cs' : List Char} (h : S cs cs') :
    Both T (singleWords cs) (singleWords cs') := by
  unfold Sneturfahi.singleWords
  rw [← ok.ends h]
  split
  · exact .cons (ok.whole h) .nil
  · obtain ⟨h1, h2, h3⟩ := ok.falls h
    have hlen := h1.length_eq
    cases hl : (Sneturfahi.falls cs).1.getLast? with
    | none =>
      have hnil : (Sneturfahi.falls cs).1 = [] := by simpa using hl
      rw [hnil] at hlen
      have hnil' := List.length_eq_zero_iff.mp hlen.symm
      simp only [hnil', List.getLast?_nil]
      exact ok.lastWord h2
    | some w =>
      cases hl' : (Sneturfahi.falls cs').1.getLast? with
      | none =>
        exfalso
        have hnil' : (Sneturfahi.falls cs').1 = [] := by simpa using hl'
        rw [hnil'] at hlen
        have hnil := List.length_eq_zero_iff.mp hlen
        rw [hnil] at hl
        simp at hl
      | some w' =>
        simp only
        rw [← ok.postWord h2]
        split
        · exact h1.append (ok.lastWord h2)
        · exact h1.dropLast.append (ok.lastWord (h3 _ _ hl hl'))

end WordSim

/-! ### Instances -/

theorem endsInConsonant_noCommas (cs : List Char) :
    endsInConsonant cs = match (noCommas cs).getLast? with | some c => isConsonant c | none => false := by
  have h : (noCommas cs).getLast? = cs.reverse.find? (fun c => c != ',') := by
    rw [noCommas, List.getLast?_eq_head?_reverse, ← List.filter_reverse, List.head?_filter]
  unfold endsInConsonant
  rw [h]
  cases cs.reverse.find? (fun c => c != ',') <;> rfl

theorem trimCommas_eq_nil {cs : List Char} : trimCommas cs = [] ↔ noCommas cs = [] := by
  constructor
  · intro h; rw [← noCommas_trim, h]; rfl
  · intro h
    rw [← noCommas_trim] at h
    exact (trimCommas_noTrail cs).allCommas (noCommas_eq_nil.mp h)

/-- Commas, except final ones, do not move word boundaries. -/
theorem wordSim_comma : WordSim CommaSim (fun w w' => noCommas w = noCommas w') where
  rules := fun rule _ _ h => parseRule_comma rule h
  cancel := by
    intro m r m' r' h h2
    have := h.1
    simp only [noCommas_append, h2.1] at this
    exact List.append_cancel_right this
  whole := fun h => h.1
  trim := by intro cs cs' h; rw [noCommas_trim, noCommas_trim]; exact h.1
  trimNil := by intro cs cs' h; rw [trimCommas_eq_nil, trimCommas_eq_nil, h.1]
  ends := by intro cs cs' h; rw [endsInConsonant_noCommas, endsInConsonant_noCommas, h.1]

theorem Pointwise.reverse {E : Char → Char → Prop} {a b : List Char} (h : Pointwise E a b) :
    Pointwise E a.reverse b.reverse := by
  induction a generalizing b with
  | nil => cases b with
    | nil => trivial
    | cons => simp [Pointwise] at h
  | cons x a ih => cases b with
    | nil => simp [Pointwise] at h
    | cons y b =>
      simp only [List.reverse_cons]
      exact (ih h.2).append ⟨h.1, trivial⟩

theorem Pointwise.dropWhile {E : Char → Char → Prop} {p : Char → Bool} (hp : ∀ a b, E a b → p a = p b)
    {a b : List Char} (h : Pointwise E a b) : Pointwise E (a.dropWhile p) (b.dropWhile p) := by
  induction a generalizing b with
  | nil => cases b with
    | nil => trivial
    | cons => simp [Pointwise] at h
  | cons x a ih => cases b with
    | nil => simp [Pointwise] at h
    | cons y b =>
      rw [List.dropWhile_cons, List.dropWhile_cons, ← hp x y h.1]
      split
      · exact ih h.2
      · exact h

theorem Pointwise.find {E : Char → Char → Prop} {p : Char → Bool} (hp : ∀ a b, E a b → p a = p b)
    {a b : List Char} (h : Pointwise E a b) :
    (a.find? p = none ∧ b.find? p = none) ∨ ∃ x y, a.find? p = some x ∧ b.find? p = some y ∧ E x y := by
  induction a generalizing b with
  | nil => cases b with
    | nil => exact Or.inl ⟨rfl, rfl⟩
    | cons => simp [Pointwise] at h
  | cons x a ih => cases b with
    | nil => simp [Pointwise] at h
    | cons y b =>
      simp only [List.find?_cons, ← hp x y h.1]
      cases hx : p x with
      | true => exact Or.inr ⟨x, y, rfl, rfl, h.1⟩
      | false => exact ih h.2

theorem OneOfPairs.cases {prs : List (Char × Char)} {Q : Char → Char → Prop} (hr : ∀ c, Q c c)
    (hp : ∀ p ∈ prs, Q p.1 p.2) {a b : Char} (h : OneOfPairs prs a b) : Q a b := by
  rcases h with rfl | h
  · exact hr _
  · exact hp _ h

/-- Characters that no rule distinguishes may be exchanged. -/
theorem wordSim_pointwise {prs : List (Char × Char)} (hc : ∀ p ∈ prs, p.1 ≠ ',' ∧ p.2 ≠ ',')
    (hg : ∀ rule, expAll (blindTo prs) (grammar rule) = true)
    (hcons : ∀ p ∈ prs, isConsonant p.1 = isConsonant p.2) :
    WordSim (Pointwise (OneOfPairs prs)) (Pointwise (OneOfPairs prs)) where
  rules := fun rule _ _ h => parseRule_pointwise hc hg rule h
  cancel := fun h h2 => (Pointwise.split' h h2.length_eq).1
  whole := fun h => h
  trim := by
    intro cs cs' h
    refine (Pointwise.dropWhile ?_ h.reverse).reverse
    intro a b hab
    have := hab.comma hc
    by_cases ha : a = ','
    · rw [ha, this.mp ha]
    · have hb : ¬ b = ',' := fun hb => ha (this.mpr hb)
      rw [beq_eq_false_iff_ne.mpr ha, beq_eq_false_iff_ne.mpr hb]
  trimNil := by
    intro cs cs' h
    rw [trimCommas_eq_nil, trimCommas_eq_nil, noCommas_eq_nil, noCommas_eq_nil]
    constructor
    · exact h.allCommas hc
    · intro h2
      have : ∀ {a b : List Char}, Pointwise (OneOfPairs prs) a b → AllCommas b → AllCommas a := by
        intro a
        induction a with
        | nil => intro b _ _; simp [AllCommas]
        | cons x a ih =>
          intro b h h2
          cases b with
          | nil => simp [Pointwise] at h
          | cons y b =>
            intro z hz
            simp at hz
            rcases hz with rfl | hz
            · exact (h.1.comma hc).mpr (h2 y (by simp))
            · exact ih h.2 (fun w hw => h2 w (by simp [hw])) z hz
      exact this h h2
  ends := by
    intro cs cs' h
    have hp : ∀ a b, OneOfPairs prs a b → (a != ',') = (b != ',') := by
      intro a b hab
      have := hab.comma hc
      by_cases ha : a = ','
      · rw [ha, this.mp ha]
      · have hb : ¬ b = ',' := fun hb => ha (this.mpr hb)
        rw [bne_iff_ne.mpr ha, bne_iff_ne.mpr hb]
    rcases Pointwise.find hp h.reverse with ⟨h1, h2⟩ | ⟨x, y, h1, h2, h3⟩
    · simp [endsInConsonant, h1, h2]
    · simp only [endsInConsonant, h1, h2]
      exact h3.cases (Q := fun x y => isConsonant x = isConsonant y) (fun _ => rfl) hcons

theorem Pointwise.byteLen {prs : List (Char × Char)} (hs : ∀ p ∈ prs, p.1.utf8Size = p.2.utf8Size)
    {a b : List Char} (h : Pointwise (OneOfPairs prs) a b) : byteLen a = byteLen b := by
  induction a generalizing b with
  | nil => cases b with
    | nil => rfl
    | cons => simp [Pointwise] at h
  | cons x a ih => cases b with
    | nil => simp [Pointwise] at h
    | cons y b =>
      have := h.1.cases (Q := fun x y => x.utf8Size = y.utf8Size) (fun _ => rfl) hs
      simp [ih h.2, this]

theorem layout_pointwise {prs : List (Char × Char)} (hs : ∀ p ∈ prs, p.1.utf8Size = p.2.utf8Size)
    {ws ws' : List (List Char)} (h : Both (Pointwise (OneOfPairs prs)) ws ws') (off : Nat) :
    layout off ws = layout off ws' := by
  induction h generalizing off with
  | nil => rfl
  | cons h1 _ ih => simp [layout, h1.byteLen hs, ih]

/-! ### Chunks -/

theorem chunks_pointwise {prs : List (Char × Char)} (hsep : ∀ p ∈ prs, isSep p.1 = isSep p.2)
    {a b : List Char} (h : Pointwise (OneOfPairs prs) a b) :
    Both (Pointwise (OneOfPairs prs)) (chunks a) (chunks b) := by
  induction a generalizing b with
  | nil => cases b with
    | nil => exact .cons trivial .nil
    | cons => simp [Pointwise] at h
  | cons x a ih => cases b with
    | nil => simp [Pointwise] at h
    | cons y b =>
      have h1 := ih h.2
      have h2 : isSep x = isSep y := h.1.cases (Q := fun x y => isSep x = isSep y) (fun _ => rfl) hsep
      simp only [chunks, ← h2]
      split
      · exact .cons trivial h1
      · generalize chunks a = ca at h1
        generalize chunks b = cb at h1
        cases h1 with
        | nil => exact .cons ⟨h.1, trivial⟩ .nil
        | cons h3 h4 => exact .cons ⟨h.1, h3⟩ h4

theorem spansAt_pointwise {prs : List (Char × Char)} (hc : ∀ p ∈ prs, p.1 ≠ ',' ∧ p.2 ≠ ',')
    (hg : ∀ rule, expAll (blindTo prs) (grammar rule) = true)
    (hcons : ∀ p ∈ prs, isConsonant p.1 = isConsonant p.2)
    (hs : ∀ p ∈ prs, p.1.utf8Size = p.2.utf8Size)
    {a b : List (List Char)} (h : Both (Pointwise (OneOfPairs prs)) a b) (off : Nat) :
    spansAt off a = spansAt off b := by
  induction h generalizing off with
  | nil => rfl
  | cons h1 _ ih =>
    simp only [spansAt]
    rw [layout_pointwise hs ((wordSim_pointwise hc hg hcons).singleWords h1), h1.byteLen hs, ih]

end Sneturfahi
