import Verif.Proof.RulesSim
import Verif.Model.Decompose

/-!
# `decompose_single` without addresses

`singleWords cs` is the list of the words a chunk decomposes into, as texts.  `decomposeSingle` is
proved to return exactly the spans of these words laid out one after the other.
-/

namespace Sneturfahi

/-- The condition of the `while let` on pure text. -/
def fallOffPure (cs : List Char) : Res :=
  match parseRule .cmavo_minimal cs with
  | some x => some x
  | none => parseRule .explicitly_stressed_brivla_minimal cs

theorem fallOffPure_append {cs m r : List Char} (h : fallOffPure cs = some (m, r)) : m ++ r = cs := by
  unfold fallOffPure at h
  split at h
  · rename_i x hx; cases h; exact parseRule_append hx
  · exact parseRule_append h

theorem fallOffPure_ne_nil {cs m r : List Char} (h : fallOffPure cs = some (m, r)) : m ≠ [] := by
  unfold fallOffPure at h
  split at h
  · rename_i x hx; cases h; exact parseRule_ne_nil (by decide) hx
  · exact parseRule_ne_nil (by decide) h

theorem fallOffPure_noTrail {cs m r : List Char} (h : fallOffPure cs = some (m, r)) : NoTrail m := by
  unfold fallOffPure at h
  split at h
  · rename_i x hx; cases h; exact parseRule_noTrail hx
  · exact parseRule_noTrail h

theorem fallOffPure_lt {cs m r : List Char} (h : fallOffPure cs = some (m, r)) : r.length < cs.length := by
  have h1 := fallOffPure_append h
  have h2 := List.length_pos_iff.mpr (fallOffPure_ne_nil h)
  rw [← h1]; simp; omega

/-- The words that fall off one after the other, and what is left. -/
def falls (cs : List Char) : List (List Char) × List Char :=
  match _h : fallOffPure cs with
  | none => ([], cs)
  | some (m, r) => (m :: (falls r).1, (falls r).2)
termination_by cs.length
decreasing_by all_goals exact fallOffPure_lt _h

theorem falls_none {cs : List Char} (h : fallOffPure cs = none) : falls cs = ([], cs) := by
  rw [falls]; split <;> simp_all

theorem falls_some {cs m r : List Char} (h : fallOffPure cs = some (m, r)) :
    falls cs = (m :: (falls r).1, (falls r).2) := by
  rw [falls]; split <;> simp_all

theorem falls_append (cs : List Char) : (falls cs).1.flatten ++ (falls cs).2 = cs := by
  induction h : cs.length using Nat.strongRecOn generalizing cs with
  | ind n ih =>
    cases hf : fallOffPure cs with
    | none => rw [falls_none hf]; rfl
    | some x =>
      obtain ⟨m, r⟩ := x
      rw [falls_some hf]
      have := ih r.length (by rw [← h]; exact fallOffPure_lt hf) r rfl
      simp only [List.flatten_cons, List.append_assoc, this]
      exact fallOffPure_append hf

theorem falls_words (cs : List Char) : ∀ w ∈ (falls cs).1, w ≠ [] ∧ NoTrail w := by
  induction h : cs.length using Nat.strongRecOn generalizing cs with
  | ind n ih =>
    cases hf : fallOffPure cs with
    | none => rw [falls_none hf]; simp
    | some x =>
      obtain ⟨m, r⟩ := x
      rw [falls_some hf]
      have := ih r.length (by rw [← h]; exact fallOffPure_lt hf) r rfl
      intro w hw
      simp at hw
      rcases hw with rfl | hw
      · exact ⟨fallOffPure_ne_nil hf, fallOffPure_noTrail hf⟩
      · exact this w hw

/-- `post_word` on pure text. -/
def postWordPure (cs : List Char) : Bool :=
  !(parseRule .nucleus cs).isSome &&
    ((parseRule .gismu cs).isSome || (parseRule .fuhivla cs).isSome ||
      (parseRule .lujvo_minimal cs).isSome || (parseRule .cmavo_minimal cs).isSome)

/-- `trim_end_matches(',')` on pure text. -/
def trimCommas (cs : List Char) : List Char := (cs.reverse.dropWhile (fun c => c == ',')).reverse

/-- The last word, if anything is left. -/
def lastWord (cs : List Char) : List (List Char) :=
  if trimCommas cs = [] then [] else [trimCommas cs]

/-- Does the text end in a consonant, commas aside? -/
def endsInConsonant (cs : List Char) : Bool :=
  match cs.reverse.find? (fun c => c != ',') with
  | some c => isConsonant c
  | none => false

/-- The words of a chunk. -/
def singleWords (cs : List Char) : List (List Char) :=
  if endsInConsonant cs then [cs]
  else
    match (falls cs).1.getLast? with
    | none => lastWord (falls cs).2
    | some w =>
      if postWordPure (falls cs).2 then (falls cs).1 ++ lastWord (falls cs).2
      else (falls cs).1.dropLast ++ lastWord (w ++ (falls cs).2)

/-- Spans of consecutive texts from byte `off` on. -/
def layout (off : Nat) : List (List Char) → List Span
  | [] => []
  | w :: ws => ⟨off, off + byteLen w⟩ :: layout (off + byteLen w) ws

theorem layout_append (off : Nat) (a b : List (List Char)) :
    layout off (a ++ b) = layout off a ++ layout (off + byteLen a.flatten) b := by
  induction a generalizing off with
  | nil => simp [layout]
  | cons w a ih => simp [layout, ih, Nat.add_assoc]

@[simp] theorem layout_length (off : Nat) (ws : List (List Char)) : (layout off ws).length = ws.length := by
  induction ws generalizing off with
  | nil => rfl
  | cons w ws ih => simp [layout, ih]

theorem runRule_isSome (rule : Rule) (s : Str) :
    (do let r ← runRule rule s; pure r.isSome) = .val (parseRule rule s.chars).isSome := by
  rw [runRule_eq]
  cases parseRule rule s.chars <;> simp [Res.at]

theorem resAt_isSome (ptr : Nat) (res : Res) : (Res.at ptr res).isSome = res.isSome := by
  cases res <;> rfl

theorem postWord_eq (s : Str) : postWord s = .val (postWordPure s.chars) := by
  simp only [postWord, runRule_eq, Exec.val_bind, resAt_isSome, postWordPure, Exec.pure_eq]
  cases (parseRule .nucleus s.chars).isSome <;> cases (parseRule .gismu s.chars).isSome <;>
    cases (parseRule .fuhivla s.chars).isSome <;> cases (parseRule .lujvo_minimal s.chars).isSome <;>
    simp

theorem fallOff_eq (s : Str) : fallOff s = .val (Res.at s.ptr (fallOffPure s.chars)) := by
  simp only [fallOff, runRule_eq, Exec.val_bind, fallOffPure]
  cases h : parseRule .cmavo_minimal s.chars <;> simp [Res.at]

theorem fromEmbeddedSlice_eq (p : Profile) (base off : Nat) (w : List Char)
    (h : off + byteLen w < u32Size) :
    Span.fromEmbeddedSlice p base ⟨base + off, w⟩ = .val ⟨off, off + byteLen w⟩ := by
  simp [Span.fromEmbeddedSlice, subPtr, tryU32, Str.len, addU32, h, show off < u32Size by omega,
    show byteLen w < u32Size by omega]

/-- The loop of `decompose_single`, with a word already saved. -/
theorem fallLoop_saved (p : Profile) (base : Nat) : ∀ (fuel off : Nat) (w rest : List Char) (chunks : List Span),
    rest.length < fuel → off + byteLen w + byteLen rest < u32Size →
    fallLoop p base fuel ⟨base + (off + byteLen w), rest⟩
        (some (⟨base + off, w⟩, ⟨base + off, w ++ rest⟩)) chunks =
      .val (⟨base + (off + byteLen (w :: (falls rest).1).flatten), (falls rest).2⟩,
        some (⟨base + (off + byteLen (w :: (falls rest).1).dropLast.flatten),
            (w :: (falls rest).1).getLast (by simp)⟩,
          ⟨base + (off + byteLen (w :: (falls rest).1).dropLast.flatten),
            (w :: (falls rest).1).getLast (by simp) ++ (falls rest).2⟩),
        (layout off (w :: (falls rest).1).dropLast).reverse ++ chunks) := by
  intro fuel
  induction fuel with
  | zero => intro off w rest chunks h; omega
  | succ fuel ih =>
    intro off w rest chunks hlen hsz
    cases hf : fallOffPure rest with
    | none => simp [fallLoop, fallOff_eq, hf, Res.at, falls_none hf, layout]
    | some x =>
      obtain ⟨m, r⟩ := x
      have happ := fallOffPure_append hf
      have hlt := fallOffPure_lt hf
      have hb : byteLen rest = byteLen m + byteLen r := by rw [← happ]; simp
      have := ih (off + byteLen w) m r (⟨off, off + byteLen w⟩ :: chunks) (by omega) (by omega)
      simp only [fallLoop, fallOff_eq, hf, Res.at, Exec.val_bind]
      rw [fromEmbeddedSlice_eq p base off w (by omega)]
      simp only [Exec.val_bind]
      rw [happ] at this
      rw [show base + (off + byteLen w) + byteLen m = base + (off + byteLen w + byteLen m) by omega, this]
      rw [falls_some hf]
      simp [layout, List.dropLast_cons_of_ne_nil, List.getLast_cons, Nat.add_assoc]

theorem fallLoop_eq (p : Profile) (base : Nat) (cs : List Char) (hsz : byteLen cs < u32Size) :
    fallLoop p base (cs.length + 1) ⟨base, cs⟩ none [] =
      .val (⟨base + byteLen (falls cs).1.flatten, (falls cs).2⟩,
        (falls cs).1.getLast?.map (fun w => (⟨base + byteLen (falls cs).1.dropLast.flatten, w⟩,
            ⟨base + byteLen (falls cs).1.dropLast.flatten, w ++ (falls cs).2⟩)),
        (layout 0 (falls cs).1.dropLast).reverse) := by
  cases hf : fallOffPure cs with
  | none => simp [fallLoop, fallOff_eq, hf, Res.at, falls_none hf, layout]
  | some x =>
    obtain ⟨m, r⟩ := x
    have happ := fallOffPure_append hf
    have hlt := fallOffPure_lt hf
    have hb : byteLen cs = byteLen m + byteLen r := by rw [← happ]; simp
    have := fallLoop_saved p base cs.length 0 m r [] hlt (by omega)
    simp only [fallLoop, fallOff_eq, hf, Res.at, Exec.val_bind]
    rw [happ] at this
    simp only [Nat.zero_add, Nat.add_zero] at this
    rw [this, falls_some hf]
    simp [List.getLast?_eq_some_getLast]

theorem trimEndCommas_eq (s : Str) : trimEndCommas s = ⟨s.ptr, trimCommas s.chars⟩ := rfl

theorem trimCommas_spec (cs : List Char) : ∃ k, AllCommas k ∧ cs = trimCommas cs ++ k := by
  refine ⟨(cs.reverse.takeWhile (fun c => c == ',')).reverse, ?_, ?_⟩
  · intro x hx
    simp only [List.mem_reverse] at hx
    have := List.all_takeWhile (p := fun c => c == ',') (l := cs.reverse)
    rw [List.all_eq_true] at this
    simpa using this x hx
  · have := List.takeWhile_append_dropWhile (p := fun c => c == ',') (l := cs.reverse)
    have h2 := congrArg List.reverse this
    simp only [List.reverse_append, List.reverse_reverse] at h2
    exact h2.symm

theorem byteLen_trim_le (cs : List Char) : byteLen (trimCommas cs) ≤ byteLen cs := by
  obtain ⟨k, _, h⟩ := trimCommas_spec cs
  have := congrArg byteLen h
  simp at this
  omega

theorem finishSingle_eq (p : Profile) (base off : Nat) (rest : List Char) (chunks : List Span)
    (h : off + byteLen rest < u32Size) :
    finishSingle p base ⟨base + off, rest⟩ chunks = .val (chunks.reverse ++ layout off (lastWord rest)) := by
  have hle := byteLen_trim_le rest
  by_cases ht : trimCommas rest = []
  · simp [finishSingle, trimEndCommas_eq, Str.isEmpty, ht, lastWord, layout]
  · have := fromEmbeddedSlice_eq p base off (trimCommas rest) (by omega)
    simp [finishSingle, trimEndCommas_eq, Str.isEmpty, ht, lastWord, layout, this]

theorem simpleCmevlaCheck_eq (s : Str) : simpleCmevlaCheck s = endsInConsonant s.chars := rfl

theorem decomposeSingle_eq (p : Profile) (s : Str) (hsz : s.len < u32Size) :
    decomposeSingle p s = .val (layout 0 (singleWords s.chars)) := by
  obtain ⟨base, cs⟩ := s
  simp only [Str.len] at hsz
  simp only [decomposeSingle, simpleCmevlaCheck_eq, singleWords]
  by_cases hc : endsInConsonant cs = true
  · have := fromEmbeddedSlice_eq p base 0 cs (by omega)
    simp only [Nat.add_zero, Nat.zero_add] at this
    simp [hc, layout, this]
  · simp only [hc, if_false, Bool.false_eq_true]
    rw [fallLoop_eq p base cs hsz]
    simp only [Exec.val_bind]
    have happ := falls_append cs
    have hb : byteLen (falls cs).1.flatten + byteLen (falls cs).2 = byteLen cs := by
      rw [← byteLen_append, happ]
    cases hl : (falls cs).1.getLast? with
    | none =>
      have hnil : (falls cs).1 = [] := by simpa using hl
      simp only [Option.map_none]
      rw [finishSingle_eq p base _ _ _ (by omega)]
      simp [hnil, layout]
    | some gl =>
      simp only [Option.map_some]
      rw [postWord_eq]
      simp only [Exec.val_bind]
      have hne : (falls cs).1 ≠ [] := by intro h; simp [h] at hl
      have hsplit : (falls cs).1.dropLast ++ [gl] = (falls cs).1 := by
        have h2 := List.dropLast_concat_getLast hne
        rw [List.getLast?_eq_some_getLast hne] at hl
        simp at hl
        rw [hl] at h2
        exact h2
      generalize hdl : (falls cs).1.dropLast = dl at *
      rw [← hsplit] at hb
      simp at hb
      by_cases hp : postWordPure (falls cs).2 = true
      · simp only [hp, if_true]
        rw [fromEmbeddedSlice_eq p base _ gl (by omega)]
        simp only [Exec.val_bind]
        rw [finishSingle_eq p base _ _ _ (by rw [← hsplit]; simp; omega)]
        rw [← hsplit]
        simp [layout_append, layout]
      · simp only [hp, if_false, Bool.false_eq_true]
        rw [finishSingle_eq p base _ _ _ (by simp; omega)]
        simp [layout_append]

/-! ### Facts about the words of a chunk -/

theorem trimCommas_noTrail (cs : List Char) : NoTrail (trimCommas cs) := by
  unfold NoTrail trimCommas
  rw [List.getLast?_reverse]
  intro h
  have := List.head?_dropWhile_not (fun c => c == ',') cs.reverse
  rw [h] at this
  simp at this

theorem noCommas_trim (cs : List Char) : noCommas (trimCommas cs) = noCommas cs := by
  obtain ⟨k, hk, h⟩ := trimCommas_spec cs
  conv => rhs; rw [h]
  simp [hk.noCommas]

theorem lastWord_flatten (cs : List Char) : (lastWord cs).flatten = trimCommas cs := by
  unfold lastWord
  split <;> simp_all

theorem flatten_dropLast_getLast {l : List (List Char)} {w : List Char} (h : l.getLast? = some w) :
    l.dropLast.flatten ++ w = l.flatten := by
  have hne : l ≠ [] := by rintro rfl; simp at h
  have h2 := List.dropLast_concat_getLast hne
  rw [List.getLast?_eq_some_getLast hne] at h
  simp at h
  conv => rhs; rw [← h2]
  simp [h]

/-- The words of a chunk are the chunk, except possibly for trailing commas. -/
theorem singleWords_flatten (cs : List Char) : ∃ k, AllCommas k ∧ cs = (singleWords cs).flatten ++ k := by
  have happ := falls_append cs
  unfold singleWords
  split
  · exact ⟨[], by simp [AllCommas], by simp⟩
  · split
    · rename_i h
      simp at h
      obtain ⟨k, hk, h2⟩ := trimCommas_spec (falls cs).2
      refine ⟨k, hk, ?_⟩
      rw [h] at happ
      simp at happ
      rw [lastWord_flatten, ← h2]
      exact happ.symm
    · rename_i w h
      split
      · obtain ⟨k, hk, h2⟩ := trimCommas_spec (falls cs).2
        refine ⟨k, hk, ?_⟩
        simp only [List.flatten_append, lastWord_flatten, List.append_assoc, ← h2]
        exact happ.symm
      · obtain ⟨k, hk, h2⟩ := trimCommas_spec (w ++ (falls cs).2)
        refine ⟨k, hk, ?_⟩
        simp only [List.flatten_append, lastWord_flatten, List.append_assoc, ← h2]
        rw [← List.append_assoc, flatten_dropLast_getLast h]
        exact happ.symm

theorem noTrail_hasLetter {w : List Char} (h1 : w ≠ []) (h2 : NoTrail w) : noCommas w ≠ [] := by
  intro h
  exact h1 (h2.allCommas (noCommas_eq_nil.mp h))

theorem lastWord_words (cs : List Char) : ∀ w ∈ lastWord cs, w ≠ [] ∧ NoTrail w := by
  intro w hw
  unfold lastWord at hw
  split at hw
  · simp at hw
  · simp at hw; subst hw; rename_i h; exact ⟨h, trimCommas_noTrail _⟩

theorem endsInConsonant_hasLetter {cs : List Char} (h : endsInConsonant cs = true) : noCommas cs ≠ [] := by
  unfold endsInConsonant at h
  split at h
  · rename_i c hc
    have h1 := List.find?_some hc
    have h2 := List.mem_of_find?_eq_some hc
    simp at h1 h2
    intro hn
    exact h1 (noCommas_eq_nil.mp hn c h2)
  · simp at h

theorem singleWords_hasLetter (cs : List Char) : ∀ w ∈ singleWords cs, noCommas w ≠ [] := by
  intro w hw
  unfold singleWords at hw
  split at hw
  · rename_i h; simp at hw; subst hw; exact endsInConsonant_hasLetter h
  · split at hw
    · have := lastWord_words _ w hw; exact noTrail_hasLetter this.1 this.2
    · split at hw
      · simp at hw
        rcases hw with hw | hw
        · have := falls_words _ w hw; exact noTrail_hasLetter this.1 this.2
        · have := lastWord_words _ w hw; exact noTrail_hasLetter this.1 this.2
      · simp at hw
        rcases hw with hw | hw
        · have := falls_words _ w (List.dropLast_subset _ hw); exact noTrail_hasLetter this.1 this.2
        · have := lastWord_words _ w hw; exact noTrail_hasLetter this.1 this.2

theorem singleWords_ne_nil {cs : List Char} (h : noCommas cs ≠ []) : singleWords cs ≠ [] := by
  intro hn
  obtain ⟨k, hk, h2⟩ := singleWords_flatten cs
  rw [hn] at h2
  simp at h2
  subst h2
  exact h hk.noCommas

end Sneturfahi
