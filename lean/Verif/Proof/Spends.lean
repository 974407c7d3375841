import Verif.Proof.TraceApi
import Verif.Props.WorkMost

/-!
# How many messages decomposing, classifying and lexing write at most
-/

namespace Sneturfahi

open Spec

/-- What is returned satisfies `P`. -/
def Post {α : Type} (P : α → Prop) (x : Exec α) : Prop := ∀ a, x = .val a → P a

theorem Post.pure {α : Type} {P : α → Prop} {a : α} (h : P a) : Post P (Pure.pure a : Exec α) := by
  intro b hb
  cases hb
  exact h

theorem Post.bind {α β : Type} {P : α → Prop} {Q : β → Prop} {x : Exec α} {f : α → Exec β} (h : Post P x) (hf : ∀ a, P a → Post Q (f a)) :
    Post Q (x >>= f) := by
  intro b hb
  cases x with
  | panic => cases hb
  | diverge => cases hb
  | val a => exact hf a (h a rfl) b hb

theorem Post.any {α : Type} (x : Exec α) : Post (fun _ => True) x := fun _ _ => trivial

theorem Post.diverge {α : Type} {P : α → Prop} : Post P (.diverge : Exec α) := nofun

theorem Post.ite {α : Type} {P : α → Prop} {c : Prop} [Decidable c] {x y : Exec α} (h : Post P x) (h' : Post P y) : Post P (if c then x else y) := by
  split
  · exact h
  · exact h'

/-- `t` does what `x` does and leaves the level as it was; it writes at most `k` messages, none further to the right than `d` nested
calls take it, and what it returns satisfies `P`. -/
def Spends {α : Type} (d k : Nat) (P : α → Prop) (t : Traced α) (x : Exec α) : Prop :=
  ∀ st, ∃ msgs, (∀ a, x = .val a → msgs.length ≤ k ∧ (∀ m ∈ msgs, m.width < 2 * (st.level + d)) ∧ P a) ∧
    t st = x.map (fun a => (a, ⟨st.level, st.log ++ msgs⟩))

variable {α β : Type} {t : Traced α} {x : Exec α} {P : α → Prop} {d : Nat}

theorem Spends.mono {k k' : Nat} {P' : α → Prop} (h : Spends d k P t x) (hk : k ≤ k') (hP : ∀ a, P a → P' a) : Spends d k' P' t x := by
  intro st
  obtain ⟨msgs, h1, h2⟩ := h st
  exact ⟨msgs, fun a ha => ⟨Nat.le_trans (h1 a ha).1 hk, (h1 a ha).2.1, hP a (h1 a ha).2.2⟩, h2⟩

theorem Spends.more {k k' : Nat} (h : Spends d k P t x) (hk : k ≤ k') : Spends d k' P t x := h.mono hk fun _ h => h

theorem Spends.lift {k : Nat} (h : Post P x) : Spends d k P (.lift x) x :=
  fun st => ⟨[], fun a ha => ⟨Nat.zero_le _, nofun, h a ha⟩, by simp [Traced.lift]⟩

theorem Spends.pure {k : Nat} {a : α} (h : P a) : Spends d k P (Pure.pure a : Traced α) (Pure.pure a) := by
  intro st
  refine ⟨[], fun b hb => ?_, ?_⟩
  · cases hb
    exact ⟨Nat.zero_le _, nofun, h⟩
  · show Exec.val _ = Exec.val _
    simp

theorem Spends.diverge {k : Nat} : Spends (α := α) d k P .diverge .diverge := fun _ => ⟨[], nofun, rfl⟩

theorem Spends.bind {k k' : Nat} {Q : β → Prop} {f : α → Traced β} {g : α → Exec β} (h : Spends d k P t x)
    (hf : ∀ a, P a → Spends d k' Q (f a) (g a)) : Spends d (k + k') Q (t >>= f) (x >>= g) := by
  intro st
  obtain ⟨m1, l1, h1⟩ := h st
  cases x with
  | panic => exact ⟨[], nofun, by rw [traced_bind, h1]; rfl⟩
  | diverge => exact ⟨[], nofun, by rw [traced_bind, h1]; rfl⟩
  | val a =>
    obtain ⟨m2, l2, h2⟩ := hf a (l1 a rfl).2.2 ⟨st.level, st.log ++ m1⟩
    refine ⟨m1 ++ m2, fun b hb => ?_, ?_⟩
    · have e1 := l1 a rfl
      have e2 := l2 b hb
      simp only [List.length_append]
      refine ⟨by omega, fun m hm => ?_, e2.2.2⟩
      rcases List.mem_append.mp hm with hm | hm
      · exact e1.2.1 m hm
      · exact e2.2.1 m hm
    · rw [traced_bind, h1]
      simpa [Exec.map] using h2

theorem Spends.ite {k : Nat} {c : Prop} [Decidable c] {t u : Traced α} {x y : Exec α} (h : Spends d k P t x) (h' : Spends d k P u y) :
    Spends d k P (if c then t else u) (if c then x else y) := by
  split
  · exact h
  · exact h'

/-- How deeply the calls a rule makes on `n` characters are nested at most. -/
def ruleDepth (n : Nat) : Nat := 128 * (n + 1)

/-- What one rule spends at most on `n` characters. -/
def ruleCost (n : Nat) : Nat := 2 * 16 ^ (129 * (n + 1))

theorem spends_rule {n : Nat} (rule : Rule) {s : Str} (hs : s.chars.length ≤ n) :
    Spends (ruleDepth n) (ruleCost n) (fun r => ∀ m rest, r = some (m, rest) → rest.chars.length ≤ n) (runRuleT rule s) (runRule rule s) := by
  intro st
  obtain ⟨res, u, h1, h2, hc, hd⟩ := Props.C101_rules rule s
  have h2' : evalRuleK (ruleFuel s) rule s = .val (res, u) := h2
  obtain ⟨msgs, h3, h4⟩ := reported_rule (ruleFuel s) rule s st
  rw [h2'] at h3
  refine ⟨msgs, fun a ha => ⟨?_, fun m hm => ?_, ?_⟩, ?_⟩
  · have := (h4 _ h2').1
    have e : 16 ^ (129 * (s.chars.length + 1)) ≤ 16 ^ (129 * (n + 1)) := Nat.pow_le_pow_right (by decide) (by omega)
    unfold ruleCost
    simp only at this
    omega
  · have := (h4 _ h2').2 m hm
    unfold ruleDepth
    simp only at this
    omega
  · rintro m rest rfl
    have := congrArg List.length (Props.C07_prefix rule s m rest ha).1
    simp only [List.length_append] at this
    omega
  · rw [h1]
    exact h3

variable {n : Nat}

theorem spends_postWord {s : Str} (hs : s.chars.length ≤ n) : Spends (ruleDepth n) (5 * ruleCost n) (fun _ => True) (postWordT s) (postWord s) := by
  unfold postWordT postWord
  refine Spends.more (k := ruleCost n + (ruleCost n + (ruleCost n + (ruleCost n + (ruleCost n + 0))))) ?_ (by omega)
  refine (spends_rule _ hs).bind fun _ _ => .ite (.pure trivial) ?_
  refine (spends_rule _ hs).bind fun _ _ => .ite (.pure trivial) ?_
  refine (spends_rule _ hs).bind fun _ _ => .ite (.pure trivial) ?_
  refine (spends_rule _ hs).bind fun _ _ => .ite (.pure trivial) ?_
  exact (spends_rule _ hs).bind fun _ _ => .pure trivial

theorem spends_fallOff {s : Str} (hs : s.chars.length ≤ n) :
    Spends (ruleDepth n) (2 * ruleCost n) (fun r => ∀ m rest, r = some (m, rest) → rest.chars.length ≤ n) (fallOffT s) (fallOff s) := by
  unfold fallOffT fallOff
  refine Spends.more (k := ruleCost n + ruleCost n) ?_ (by omega)
  refine (spends_rule _ hs).bind fun a ha => ?_
  cases a with
  | none => exact spends_rule _ hs
  | some a => exact .pure ha

theorem spends_fallLoop (p : Profile) (base fuel : Nat) : ∀ (rest : Str) saved chunks, rest.chars.length ≤ n →
    Spends (ruleDepth n) (fuel * (2 * ruleCost n)) (fun r => r.1.chars.length ≤ n) (fallLoopT p base fuel rest saved chunks) (fallLoop p base fuel rest saved chunks) := by
  induction fuel with
  | zero => intros; exact .diverge
  | succ fuel ih =>
    intro rest saved chunks hr
    refine Spends.more (k := 2 * ruleCost n + (0 + fuel * (2 * ruleCost n))) ?_ (by have e := Nat.add_mul fuel 1 (2 * ruleCost n); rw [Nat.one_mul] at e; omega)
    refine (spends_fallOff hr).bind fun a ha => ?_
    match a with
    | none => exact .pure hr
    | some (m, r) =>
      have h := ha m r rfl
      cases saved with
      | none => exact (ih _ _ _ h).more (by omega)
      | some _ => exact (Spends.lift (.any _)).bind fun _ _ => ih _ _ _ h

/-- What splitting one chunk spends at most. -/
def chunkCost (n : Nat) : Nat := (2 * n + 7) * ruleCost n

theorem spends_decomposeSingle (p : Profile) {s : Str} (hs : s.chars.length ≤ n) :
    Spends (ruleDepth n) (chunkCost n) (fun _ => True) (decomposeSingleT p s) (decomposeSingle p s) := by
  unfold decomposeSingleT decomposeSingle
  refine .ite ((Spends.lift (.any _)).bind (k := 0) (k' := chunkCost n) (fun _ _ => .pure trivial) |>.more (by omega)) ?_
  refine Spends.more (k := (s.chars.length + 1) * (2 * ruleCost n) + 5 * ruleCost n) ?_ ?_
  · refine (spends_fallLoop _ _ _ _ _ _ hs).bind fun a ha => ?_
    obtain ⟨rest, saved, chunks⟩ := a
    cases saved with
    | none => exact .lift (.any _)
    | some s =>
      refine Spends.more (k := 5 * ruleCost n + 0) ((spends_postWord ha).bind fun b _ => ?_) (by omega)
      exact .ite ((Spends.lift (.any _)).bind (k := 0) (k' := 0) fun _ _ => .lift (.any _)) (.lift (.any _))
  · have : (s.chars.length + 1) * (2 * ruleCost n) ≤ (n + 1) * (2 * ruleCost n) := Nat.mul_le_mul_right _ (by omega)
    have e : chunkCost n = (n + 1) * (2 * ruleCost n) + 5 * ruleCost n := by
      have : 2 * n + 7 = (n + 1) * 2 + 5 := by omega
      unfold chunkCost
      generalize ruleCost n = c
      rw [this, Nat.add_mul, Nat.mul_assoc]
    omega

/-- The chunks still to come have at most `n` characters, and there are at most `n + 1`. -/
structure Roomy (n : Nat) (d : Decomposer) : Prop where
  split : ∀ s ∈ d.split, s.chars.length ≤ n
  peeked : ∀ s, d.peeked = some (some s) → s.chars.length ≤ n
  count : d.split.length ≤ n + 1

theorem roomy_findSplit {d : Decomposer} : ∀ (l : List Str), (∀ s ∈ l, s.chars.length ≤ n) → l.length ≤ n + 1 →
    Roomy n (Decomposer.findSplit d l).2 ∧ ∀ s, (Decomposer.findSplit d l).1 = some s → s.chars.length ≤ n
  | [], _, _ => ⟨⟨nofun, nofun, Nat.zero_le _⟩, nofun⟩
  | s :: ss, h, hl => by
    simp only [List.length_cons] at hl
    unfold Decomposer.findSplit
    split
    · refine ⟨⟨fun t ht => h t (List.mem_cons_of_mem _ ht), nofun, by simp only; omega⟩, ?_⟩
      rintro t ⟨⟩
      exact h s (List.mem_cons_self ..)
    · exact roomy_findSplit ss (fun t ht => h t (List.mem_cons_of_mem _ ht)) (by omega)

theorem roomy_chunksFind {d : Decomposer} (h : Roomy n d) :
    Roomy n d.chunksFind.2 ∧ ∀ s, d.chunksFind.1 = some s → s.chars.length ≤ n := by
  have hf := roomy_findSplit (d := d) d.split h.split h.count
  unfold Decomposer.chunksFind
  split
  · exact ⟨⟨h.split, nofun, h.count⟩, nofun⟩
  · rename_i s hs
    split
    · refine ⟨⟨h.split, nofun, h.count⟩, ?_⟩
      rintro t ⟨⟩
      exact h.peeked s hs
    · exact hf
  · exact hf

theorem spends_nextLoop (p : Profile) (fuel : Nat) : ∀ d, Roomy n d →
    Spends (ruleDepth n) (fuel * chunkCost n) (fun r => Roomy n r.2) (Decomposer.nextLoopT p fuel d) (Decomposer.nextLoop p fuel d) := by
  induction fuel with
  | zero => intros; exact .diverge
  | succ fuel ih =>
    intro d hd
    unfold Decomposer.nextLoopT Decomposer.nextLoop
    have hc := roomy_chunksFind hd
    generalize d.current = c
    cases c with
    | cons => exact .pure ⟨hd.split, hd.peeked, hd.count⟩
    | nil =>
      generalize d.chunksFind = r at hc
      obtain ⟨chunk, d'⟩ := r
      cases chunk with
      | none => exact .pure hc.1
      | some chunk =>
        refine Spends.more (k := 0 + (0 + (chunkCost n + (0 + fuel * chunkCost n)))) ?_ (by have e := Nat.add_mul fuel 1 (chunkCost n); rw [Nat.one_mul] at e; omega)
        refine (Spends.lift (.any _)).bind fun _ _ => (Spends.lift (.any _)).bind fun _ _ => ?_
        exact (spends_decomposeSingle _ (hc.2 _ rfl)).bind fun _ _ => (Spends.lift (.any _)).bind fun _ _ =>
          ih _ ⟨hc.1.split, hc.1.peeked, hc.1.count⟩

/-- What one step of the decomposer spends at most. -/
def nextCost (n : Nat) : Nat := (n + 4) * chunkCost n

theorem spends_next (p : Profile) {d : Decomposer} (h : Roomy n d) : Spends (ruleDepth n) (nextCost n) (fun r => Roomy n r.2) (d.nextT p) (d.next p) :=
  (spends_nextLoop p (d.split.length + 3) d h).more (Nat.mul_le_mul_right _ (by have := h.count; omega))

theorem spends_collectWords (p : Profile) (fuel : Nat) : ∀ d, Roomy n d →
    Spends (ruleDepth n) (fuel * nextCost n) (fun _ => True) (collectWordsT p fuel d) (collectWords p fuel d) := by
  induction fuel with
  | zero => intros; exact .diverge
  | succ fuel ih =>
    intro d hd
    refine Spends.more (k := nextCost n + (fuel * nextCost n + 0)) ?_ (by have e := Nat.add_mul fuel 1 (nextCost n); rw [Nat.one_mul] at e; omega)
    refine (spends_next p hd).bind fun a ha => ?_
    obtain ⟨w, d'⟩ := a
    cases w with
    | none => exact .pure trivial
    | some w => exact (ih _ ha).bind fun _ _ => .pure trivial

theorem roomy_pieces : ∀ (cs : List Char) (ptr : Nat), (∀ s ∈ pieces ptr cs, s.chars.length ≤ cs.length) ∧ (pieces ptr cs).length ≤ cs.length + 1
  | [], ptr => by simp [pieces]
  | c :: cs, ptr => by
    have ih := roomy_pieces cs (ptr + c.utf8Size)
    unfold pieces
    split
    · refine ⟨fun s hs => ?_, by simp only [List.length_cons]; omega⟩
      simp only [List.mem_cons, List.length_cons] at hs ⊢
      rcases hs with rfl | hs
      · simp
      · have := ih.1 s hs; omega
    · generalize pieces (ptr + c.utf8Size) cs = l at ih
      cases l with
      | nil => simp
      | cons s ss =>
        refine ⟨fun t ht => ?_, by simp only [List.length_cons] at ih ⊢; omega⟩
        simp only [List.mem_cons, List.length_cons] at ht ⊢
        rcases ht with rfl | ht
        · have := ih.1 s (List.mem_cons_self ..)
          simp only [List.length_cons]
          omega
        · have := ih.1 t (List.mem_cons_of_mem _ ht); omega

theorem roomy_decompose (input : Str) : Roomy input.chars.length (decompose input) :=
  ⟨(roomy_pieces _ _).1, nofun, (roomy_pieces _ _).2⟩

theorem spends_decomposeAll (p : Profile) (input : Str) :
    Spends (ruleDepth input.chars.length) ((input.chars.length + 1) * nextCost input.chars.length) (fun _ => True) (decomposeAllT p input) (decomposeAll p input) :=
  spends_collectWords p _ _ (roomy_decompose input)

theorem spends_classifyGenerally {s : Str} (hs : s.chars.length ≤ n) :
    Spends (ruleDepth n) (5 * ruleCost n) (fun _ => True) (classifyGenerallyT s) (classifyGenerally s) := by
  unfold classifyGenerallyT classifyGenerally
  refine Spends.more (k := ruleCost n + (ruleCost n + (ruleCost n + (ruleCost n + (ruleCost n + 0))))) ?_ (by omega)
  refine (spends_rule _ hs).bind fun _ _ => .ite (.pure trivial) ?_
  refine (spends_rule _ hs).bind fun _ _ => .ite (.pure trivial) ?_
  refine (spends_rule _ hs).bind fun _ _ => .ite (.pure trivial) ?_
  refine (spends_rule _ hs).bind fun _ _ => .ite (.pure trivial) ?_
  exact (spends_rule _ hs).bind fun _ _ => .ite (.pure trivial) (.pure trivial)

theorem spends_classify {s : Str} (hs : s.chars.length ≤ n) : Spends (ruleDepth n) (5 * ruleCost n) (fun _ => True) (classifyT s) (classify s) := by
  unfold classifyT classify
  refine Spends.more (k := 0 + (5 * ruleCost n + 0)) ?_ (by omega)
  refine (Spends.lift (.any _)).bind fun direct _ => ?_
  have tail : ∀ a : Selmaho × Bool, Spends (ruleDepth n) 0 (fun _ => True)
      (match a with | (selmaho, isExperimental) => (pure (selmaho, selmaho.isFundamentallyExperimental || isExperimental) : Traced _))
      (match a with | (selmaho, isExperimental) => pure (selmaho, selmaho.isFundamentallyExperimental || isExperimental)) :=
    fun a => .pure trivial
  cases direct with
  | none => exact (spends_classifyGenerally hs).bind fun _ _ => (Spends.pure trivial).bind (k := 0) (k' := 0) fun a (_ : True) => tail a
  | some w =>
    simp only
    generalize lookupDirect w = o
    cases o with
    | none => exact (spends_classifyGenerally hs).bind fun _ _ => (Spends.pure trivial).bind (k := 0) (k' := 0) fun a (_ : True) => tail a
    | some o => exact (Spends.pure trivial).bind (k := 5 * ruleCost n) (k' := 0) fun a (_ : True) => tail a

theorem sliceUnwrap_fits (span : Span) (s : Str) : Post (fun w => w.chars.length ≤ s.chars.length) (span.sliceUnwrap s) := by
  intro w hw
  unfold Span.sliceUnwrap Span.slice Str.get at hw
  split at hw
  · rename_i r hr
    cases hw
    split at hr
    · split at hr
      · rename_i pre post h1
        split at hr
        · rename_i a b h2
          cases hr
          have e1 := congrArg List.length (splitBytes_eq_some.mp h1).1
          have e2 := congrArg List.length (splitBytes_eq_some.mp h2).1
          simp only [List.length_append] at e1 e2 ⊢
          omega
        · cases hr
      · cases hr
    · cases hr
  · cases hw

/-- The same for a lexer, whose input has at most `n` characters. -/
structure RoomyLexer (n : Nat) (l : Lexer) : Prop where
  words : Roomy n l.words
  input : l.input.chars.length ≤ n

theorem roomy_noDecomposition (p : Profile) {d : Decomposer} (h : Roomy n d) : Post (fun r => Roomy n r.2) (d.nextNoDecomposition p) := by
  have hp : Roomy n d.chunksPeek.2 := by
    unfold Decomposer.chunksPeek
    split
    · exact h
    · split
      · exact ⟨h.split, nofun, h.count⟩
      · rename_i s ss hs
        refine ⟨fun t ht => h.split t (by rw [hs]; exact List.mem_cons_of_mem _ ht), ?_, ?_⟩
        · rintro t ⟨⟩
          exact h.split _ (by rw [hs]; exact List.mem_cons_self ..)
        · have := h.count
          rw [hs] at this
          simp only [List.length_cons] at this ⊢
          omega
  have hn : Roomy n d.chunksNext.2 := by
    unfold Decomposer.chunksNext
    split
    · exact ⟨h.split, nofun, h.count⟩
    · split
      · exact h
      · rename_i s ss hs
        refine ⟨fun t ht => h.split t (by rw [hs]; exact List.mem_cons_of_mem _ ht), h.peeked, ?_⟩
        have := h.count
        rw [hs] at this
        simp only [List.length_cons] at this ⊢
        omega
  unfold Decomposer.nextNoDecomposition
  split
  · split
    · rename_i e
      rw [e] at hp
      exact (Post.any _).bind fun _ _ => .pure ⟨hp.split, hp.peeked, hp.count⟩
    · rename_i e
      rw [e] at hp
      exact (Post.any _).bind fun _ _ => (Post.any _).bind fun _ _ => .pure ⟨hp.split, hp.peeked, hp.count⟩
  · split
    · rename_i e
      rw [e] at hn
      exact .pure hn
    · rename_i e
      rw [e] at hn
      exact (Post.any _).bind fun _ _ => .pure hn

theorem roomy_quoteLoop (p : Profile) (q : QuoteState) (fuel : Nat) : ∀ l text, RoomyLexer n l →
    Post (fun r => RoomyLexer n r.2) (Lexer.quoteLoop p q fuel l text) := by
  induction fuel with
  | zero => intros; exact .diverge
  | succ fuel ih =>
    intro l text hl
    unfold Lexer.quoteLoop
    refine (roomy_noDecomposition p hl.words).bind fun a ha => ?_
    obtain ⟨w, ws⟩ := a
    cases w with
    | none => exact .pure ⟨ha, hl.input⟩
    | some w =>
      refine (Post.any _).bind fun _ _ => (Post.any _).bind fun _ _ => ?_
      refine .ite ?_ (ih _ _ ⟨ha, hl.input⟩)
      have finish : ∀ textToken : Option Token, Post (fun r => RoomyLexer n r.2) (if q.isFirst = true then
          (pure (some (Except.ok { experimental := false, selmaho := .ZoiDelimiter, span := q.startingDelimiterSpan }),
            { words := ws, input := l.input, state :=
              (match textToken with
              | none => LexState.oneMoreTokenThen { experimental := false, selmaho := .ZoiDelimiter, span := w } (q.next w)
              | some t => LexState.twoMoreTokensThen t { experimental := false, selmaho := .ZoiDelimiter, span := w } (q.next w)) }) : Lexer.Step)
          else match textToken with
          | some t => pure (some (Except.ok t),
              { words := ws, input := l.input, state := LexState.oneMoreTokenThen { experimental := false, selmaho := .ZoiDelimiter, span := w } (q.next w) })
          | none => pure (some (Except.ok { experimental := false, selmaho := .ZoiDelimiter, span := w }),
              { words := ws, input := l.input, state := LexState.afterQuote (q.next w) })) := by
        intro textToken
        refine .ite (.pure ⟨ha, hl.input⟩) ?_
        cases textToken <;> exact .pure ⟨ha, hl.input⟩
      cases text with
      | none => exact finish none
      | some ab => exact (Post.any _).bind fun sp _ => finish (some ⟨false, .AnyText, sp⟩)

theorem roomy_lexNext (p : Profile) {l : Lexer} (hl : RoomyLexer n l) (hs : l.state ≠ .normal) : Post (fun r => RoomyLexer n r.2) (l.next p) := by
  unfold Lexer.next
  split
  · contradiction
  · exact roomy_quoteLoop _ _ _ _ _ hl
  · exact .pure ⟨hl.words, hl.input⟩
  · exact .pure ⟨hl.words, hl.input⟩
  · unfold Lexer.nextPauseDelimitedQuote
    refine (roomy_noDecomposition p hl.words).bind fun a ha => ?_
    obtain ⟨w, ws⟩ := a
    cases w <;> exact .pure ⟨ha, hl.input⟩
  · exact .pure ⟨hl.words, hl.input⟩

/-- What one step of the lexer spends at most. -/
def lexCost (n : Nat) : Nat := 2 * nextCost n + 5 * ruleCost n

theorem spends_nextNormal (p : Profile) {l : Lexer} (hl : RoomyLexer n l) :
    Spends (ruleDepth n) (lexCost n) (fun r => RoomyLexer n r.2) (l.nextNormalT p) (l.nextNormal p) := by
  unfold Lexer.nextNormalT Lexer.nextNormal
  refine Spends.more (k := nextCost n + (0 + (5 * ruleCost n + (nextCost n + 0)))) ?_ (by unfold lexCost; omega)
  refine (spends_next p hl.words).bind fun a ha => ?_
  obtain ⟨w, ws⟩ := a
  cases w with
  | none => exact .pure ⟨ha, hl.input⟩
  | some w =>
    refine (Spends.lift (sliceUnwrap_fits _ _)).bind fun word hw => ?_
    refine (spends_classify (Nat.le_trans hw hl.input)).bind fun c _ => ?_
    obtain ⟨selmaho, experimental⟩ := c
    refine .ite ?_ (.ite (.pure ⟨ha, hl.input⟩) (.ite (.pure ⟨ha, hl.input⟩) (.pure ⟨ha, hl.input⟩)))
    refine (spends_next p ha).bind fun b hb => ?_
    obtain ⟨v, vs⟩ := b
    cases v <;> exact .pure ⟨hb, hl.input⟩

theorem spends_lexNext (p : Profile) {l : Lexer} (hl : RoomyLexer n l) : Spends (ruleDepth n) (lexCost n) (fun r => RoomyLexer n r.2) (l.nextT p) (l.next p) := by
  unfold Lexer.nextT
  split
  · rename_i h
    unfold Lexer.next
    rw [h]
    exact spends_nextNormal p hl
  · rename_i h
    exact .lift (roomy_lexNext p hl h)

theorem spends_collectItems (p : Profile) (fuel : Nat) : ∀ l, RoomyLexer n l →
    Spends (ruleDepth n) (fuel * lexCost n) (fun _ => True) (collectItemsT p fuel l) (collectItems p fuel l) := by
  induction fuel with
  | zero => intros; exact .diverge
  | succ fuel ih =>
    intro l hl
    refine Spends.more (k := lexCost n + (fuel * lexCost n + 0)) ?_ (by have e := Nat.add_mul fuel 1 (lexCost n); rw [Nat.one_mul] at e; omega)
    refine (spends_lexNext p hl).bind fun a ha => ?_
    obtain ⟨w, l'⟩ := a
    cases w with
    | none => exact .pure trivial
    | some w => exact (ih _ ha).bind fun _ _ => .pure trivial

theorem spends_lexAll (p : Profile) (input : Str) :
    Spends (ruleDepth input.chars.length) ((2 * input.chars.length + 3) * lexCost input.chars.length) (fun _ => True) (lexAllT p input) (lexAll p input) :=
  spends_collectItems p _ _ ⟨roomy_decompose input, Nat.le_refl _⟩

/-! ### In short -/

theorem power_split (n k : Nat) : 16 ^ ((129 + k) * (n + 1)) = 16 ^ (129 * (n + 1)) * (2 ^ (n + 1)) ^ (4 * k) := by
  rw [Nat.add_mul, Nat.pow_add, show (16 : Nat) = 2 ^ 4 from rfl, ← Nat.pow_mul 2 4 (k * (n + 1)), ← Nat.pow_mul 2 (n + 1)]
  congr 2
  grind

theorem wordsCost_le (n : Nat) : (n + 1) * nextCost n ≤ 16 ^ (132 * (n + 1)) := by
  rw [power_split n 3]
  unfold nextCost chunkCost ruleCost
  generalize 16 ^ (129 * (n + 1)) = c
  have hx : n + 1 < 2 ^ (n + 1) := Nat.lt_two_pow_self
  have h2 : 2 ≤ 2 ^ (n + 1) := by rw [Nat.pow_succ]; have := Nat.two_pow_pos n; omega
  generalize 2 ^ (n + 1) = x at hx h2
  have h4 : 2 ^ 2 ≤ x ^ 2 := Nat.pow_le_pow_left h2 2
  have h8 : 2 ^ 3 ≤ x ^ 3 := Nat.pow_le_pow_left h2 3
  have e1 : n + 4 ≤ x ^ 2 * x := Nat.le_trans (by omega : n + 4 ≤ 2 ^ 2 * (n + 1)) (Nat.mul_le_mul h4 (by omega))
  have e2 : 2 * n + 7 ≤ x ^ 3 * x := Nat.le_trans (by omega : 2 * n + 7 ≤ 2 ^ 3 * (n + 1)) (Nat.mul_le_mul h8 (by omega))
  have e3 : (n + 1) * ((n + 4) * ((2 * n + 7) * (2 * c))) ≤ x * ((x ^ 2 * x) * ((x ^ 3 * x) * (x * c))) :=
    Nat.mul_le_mul (by omega) (Nat.mul_le_mul e1 (Nat.mul_le_mul e2 (Nat.mul_le_mul_right _ h2)))
  refine Nat.le_trans e3 ?_
  have e4 : x * ((x ^ 2 * x) * ((x ^ 3 * x) * (x * c))) = c * x ^ 9 := by grind
  rw [e4]
  exact Nat.mul_le_mul_left _ (Nat.pow_le_pow_right (by omega) (by decide))

theorem itemsCost_le (n : Nat) : (2 * n + 3) * lexCost n ≤ 16 ^ (133 * (n + 1)) := by
  rw [power_split n 4]
  unfold lexCost nextCost chunkCost ruleCost
  generalize 16 ^ (129 * (n + 1)) = c
  have hx : n + 1 < 2 ^ (n + 1) := Nat.lt_two_pow_self
  have h2 : 2 ≤ 2 ^ (n + 1) := by rw [Nat.pow_succ]; have := Nat.two_pow_pos n; omega
  generalize 2 ^ (n + 1) = x at hx h2
  have h4 : 2 ^ 2 ≤ x ^ 2 := Nat.pow_le_pow_left h2 2
  have h8 : 2 ^ 3 ≤ x ^ 3 := Nat.pow_le_pow_left h2 3
  have e0 : 2 * n + 3 ≤ x ^ 2 * x := Nat.le_trans (by omega : 2 * n + 3 ≤ 2 ^ 2 * (n + 1)) (Nat.mul_le_mul h4 (by omega))
  have e1 : n + 4 ≤ x ^ 2 * x := Nat.le_trans (by omega : n + 4 ≤ 2 ^ 2 * (n + 1)) (Nat.mul_le_mul h4 (by omega))
  have e2 : 2 * n + 7 ≤ x ^ 3 * x := Nat.le_trans (by omega : 2 * n + 7 ≤ 2 ^ 3 * (n + 1)) (Nat.mul_le_mul h8 (by omega))
  have e3 : (n + 4) * ((2 * n + 7) * (2 * c)) ≤ (x ^ 2 * x) * ((x ^ 3 * x) * (x * c)) :=
    Nat.mul_le_mul e1 (Nat.mul_le_mul e2 (Nat.mul_le_mul_right _ h2))
  have e4 : (x ^ 2 * x) * ((x ^ 3 * x) * (x * c)) = c * x ^ 8 := by grind
  have e5 : 5 * (2 * c) ≤ c * x ^ 8 := by
    have : 2 ^ 8 ≤ x ^ 8 := Nat.pow_le_pow_left h2 8
    calc 5 * (2 * c) ≤ c * 2 ^ 8 := by omega
      _ ≤ c * x ^ 8 := Nat.mul_le_mul_left _ this
  rw [e4] at e3
  have e6 : 2 * ((n + 4) * ((2 * n + 7) * (2 * c))) + 5 * (2 * c) ≤ x ^ 2 * (c * x ^ 8) := by
    calc 2 * ((n + 4) * ((2 * n + 7) * (2 * c))) + 5 * (2 * c) ≤ 2 ^ 2 * (c * x ^ 8) := by omega
      _ ≤ _ := Nat.mul_le_mul_right _ h4
  refine Nat.le_trans (Nat.mul_le_mul e0 e6) ?_
  have e7 : x ^ 2 * x * (x ^ 2 * (c * x ^ 8)) = c * x ^ 13 := by grind
  rw [e7]
  exact Nat.mul_le_mul_left _ (Nat.pow_le_pow_right (by omega) (by decide))

end Sneturfahi
