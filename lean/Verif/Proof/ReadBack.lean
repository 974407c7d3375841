import Verif.Spec.Said
import Verif.Props.Classify

/-!
# The characters printed can be read back
-/

namespace Sneturfahi.ReadBack

open Sneturfahi Props Spec

/-! ## Lists -/

theorem span_inj {α : Type} {q : α → Bool} {a b : List α} {c c' : α} {r r' : List α} (ha : ∀ x ∈ a, q x = true)
    (hb : ∀ x ∈ b, q x = true) (hc : q c = false) (hc' : q c' = false) (h : a ++ c :: r = b ++ c' :: r') :
    a = b ∧ c :: r = c' :: r' := by
  induction a generalizing b with
  | nil =>
    cases b with
    | nil => exact ⟨rfl, h⟩
    | cons y b =>
      simp only [List.nil_append, List.cons_append, List.cons.injEq] at h
      rw [h.1, hb y (by simp)] at hc
      cases hc
  | cons x a ih =>
    cases b with
    | nil =>
      simp only [List.nil_append, List.cons_append, List.cons.injEq] at h
      rw [← h.1, ha x (by simp)] at hc'
      cases hc'
    | cons y b =>
      simp only [List.cons_append, List.cons.injEq] at h
      obtain ⟨h1, h2⟩ := ih (fun x hx => ha x (by simp [hx])) (fun x hx => hb x (by simp [hx])) h.2
      exact ⟨by rw [h.1, h1], h2⟩

theorem pre_inj {α : Type} (k : List α) {r r' : List α} (h : k ++ r = k ++ r') : r = r' := List.append_cancel_left h

/-- Of two beginnings of the same list one is a beginning of the other. -/
theorem compat {α : Type} {a b r r' : List α} (h : a ++ r = b ++ r') : a <+: b ∨ b <+: a :=
  List.prefix_or_prefix_of_prefix ⟨r, h⟩ ⟨r', rfl⟩

/-! ## Numbers -/

theorem digitChar_inj {a b : Nat} (ha : a < 16) (hb : b < 16) (h : a.digitChar = b.digitChar) : a = b := by
  have : ∀ a < 16, ∀ b < 16, Nat.digitChar a = Nat.digitChar b → a = b := by decide
  exact this a ha b hb h

theorem toDigits_inj (base : Nat) (h1 : 1 < base) (h2 : base ≤ 16) : ∀ n m : Nat, Nat.toDigits base n = Nat.toDigits base m → n = m := by
  intro n
  induction n using Nat.strongRecOn with
  | ind n ih =>
    intro m h
    rw [Nat.toDigits_eq_if h1 (n := n), Nat.toDigits_eq_if h1 (n := m)] at h
    by_cases hn : n < base <;> by_cases hm : m < base
    · rw [if_pos hn, if_pos hm] at h
      exact digitChar_inj (by omega) (by omega) (List.cons.inj h).1
    · rw [if_pos hn, if_neg hm] at h
      have := congrArg List.length h
      have h3 := List.length_pos_iff.mpr (Nat.toDigits_ne_nil (n := m / base) (b := base))
      simp only [List.length_append, List.length_cons, List.length_nil] at this
      omega
    · rw [if_neg hn, if_pos hm] at h
      have := congrArg List.length h
      have h3 := List.length_pos_iff.mpr (Nat.toDigits_ne_nil (n := n / base) (b := base))
      simp only [List.length_append, List.length_cons, List.length_nil] at this
      omega
    · rw [if_neg hn, if_neg hm] at h
      have hl := List.append_inj_left' h rfl
      have hr := List.append_inj_right' h rfl
      have hd := ih (n / base) (Nat.div_lt_self (by omega) h1) _ hl
      have hr' := digitChar_inj (Nat.lt_of_lt_of_le (Nat.mod_lt _ (by omega)) h2)
        (Nat.lt_of_lt_of_le (Nat.mod_lt _ (by omega)) h2) (List.cons.inj hr).1
      rw [← Nat.div_add_mod n base, ← Nat.div_add_mod m base, hd, hr']

theorem hex_digits (n : Nat) : ∀ c ∈ Nat.toDigits 16 n, c ∈ c!"0123456789abcdef" := by
  induction n using Nat.strongRecOn with
  | ind n ih =>
    have hd : ∀ k < 16, Nat.digitChar k ∈ c!"0123456789abcdef" := by decide
    rw [Nat.toDigits_eq_if (by decide)]
    split
    · intro c hc
      rw [List.mem_singleton.mp hc]
      exact hd n ‹_›
    · intro c hc
      rcases List.mem_append.mp hc with hc | hc
      · exact ih (n / 16) (by omega) c hc
      · rw [List.mem_singleton.mp hc]
        exact hd _ (Nat.mod_lt _ (by decide))

theorem decimal_digit (n : Nat) : ∀ c ∈ decimal n, c.isDigit = true := fun _ hc =>
  Nat.isDigit_of_mem_toDigits (by decide) (by decide) hc

theorem decimal_inj {n m : Nat} {c c' : Char} {r r' : List Char} (hc : c.isDigit = false) (hc' : c'.isDigit = false)
    (h : decimal n ++ c :: r = decimal m ++ c' :: r') : n = m ∧ c :: r = c' :: r' := by
  obtain ⟨h1, h2⟩ := span_inj (decimal_digit n) (decimal_digit m) hc hc' h
  exact ⟨toDigits_inj 10 (by decide) (by decide) _ _ h1, h2⟩

theorem span_debug_inj {a b : Span} {c c' : Char} {r r' : List Char} (hc : c.isDigit = false) (hc' : c'.isDigit = false)
    (h : a.debug ++ c :: r = b.debug ++ c' :: r') : a = b ∧ c :: r = c' :: r' := by
  unfold Span.debug at h
  simp only [List.append_assoc, List.cons_append, List.nil_append] at h
  obtain ⟨h1, h2⟩ := decimal_inj (by decide) (by decide) h
  simp only [List.cons.injEq, true_and] at h2
  obtain ⟨h3, h4⟩ := decimal_inj hc hc' h2
  refine ⟨?_, h4⟩
  obtain ⟨a1, a2⟩ := a
  obtain ⟨b1, b2⟩ := b
  simp_all

/-! ## Quotes -/

/-- The character meant by a letter after a backslash. -/
def unescape (k : Char) : Char :=
  if k = '0' then '\x00' else if k = 't' then '\t' else if k = 'r' then '\r' else if k = 'n' then '\n' else k

theorem escape_cases (plain : Char → Bool) (c : Char) :
    (escape plain c = [c] ∧ c ≠ '\\' ∧ c ≠ '"') ∨ (∃ k, escape plain c = ['\\', k] ∧ k ≠ 'u' ∧ c = unescape k) ∨
      escape plain c = unicodeEscape c := by
  unfold escape
  split
  · exact .inr (.inl ⟨'0', rfl, by decide, by subst c; decide⟩)
  split
  · exact .inr (.inl ⟨'t', rfl, by decide, by subst c; decide⟩)
  split
  · exact .inr (.inl ⟨'r', rfl, by decide, by subst c; decide⟩)
  split
  · exact .inr (.inl ⟨'n', rfl, by decide, by subst c; decide⟩)
  split
  · exact .inr (.inl ⟨'\\', rfl, by decide, by subst c; decide⟩)
  split
  · exact .inr (.inl ⟨'"', rfl, by decide, by subst c; decide⟩)
  split
  · exact .inr (.inr rfl)
  split
  · exact .inl ⟨rfl, by assumption, by assumption⟩
  · exact .inr (.inr rfl)

theorem unicodeEscape_inj {c d : Char} {r r' : List Char} (h : unicodeEscape c ++ r = unicodeEscape d ++ r') : c = d ∧ r = r' := by
  unfold unicodeEscape at h
  simp only [List.append_assoc, List.cons_append, List.nil_append, List.cons.injEq, true_and] at h
  have hh : ∀ n, ∀ x ∈ Nat.toDigits 16 n, (fun x => x != '}') x = true := by
    intro n x hx
    have := hex_digits n x hx
    have key : ∀ x ∈ c!"0123456789abcdef", (x != '}') = true := by decide
    exact key x this
  obtain ⟨h1, h2⟩ := span_inj (q := fun x => x != '}') (hh _) (hh _) (by decide) (by decide) h
  refine ⟨Char.toNat_inj.mp (toDigits_inj 16 (by decide) (by decide) _ _ h1), ?_⟩
  simpa using h2

theorem escape_inj (plain : Char → Bool) {c d : Char} {r r' : List Char} (h : escape plain c ++ r = escape plain d ++ r') :
    c = d ∧ r = r' := by
  rcases escape_cases plain c with ⟨h1, h2, _⟩ | ⟨k, h1, h2, h3⟩ | h1 <;>
  rcases escape_cases plain d with ⟨g1, g2, _⟩ | ⟨l, g1, g2, g3⟩ | g1 <;> rw [h1, g1] at h
  · simpa using h
  · simp only [List.cons_append, List.cons.injEq] at h
    exact absurd h.1 h2
  · simp only [unicodeEscape, List.cons_append, List.cons.injEq] at h
    exact absurd h.1 h2
  · simp only [List.cons_append, List.cons.injEq] at h
    exact absurd h.1.symm g2
  · simp only [List.cons_append, List.nil_append, List.cons.injEq, true_and] at h
    refine ⟨by rw [h3, g3, h.1], h.2⟩
  · simp only [unicodeEscape, List.cons_append, List.nil_append, List.cons.injEq, true_and] at h
    exact absurd h.1 h2
  · simp only [unicodeEscape, List.cons_append, List.cons.injEq] at h
    exact absurd h.1.symm g2
  · simp only [unicodeEscape, List.cons_append, List.nil_append, List.cons.injEq, true_and] at h
    exact absurd h.1.symm g2
  · exact unicodeEscape_inj h

theorem escape_head (plain : Char → Bool) (c : Char) : ∃ x xs, escape plain c = x :: xs ∧ x ≠ '"' := by
  rcases escape_cases plain c with ⟨h1, _, h2⟩ | ⟨k, h1, _⟩ | h1
  · exact ⟨_, _, h1, h2⟩
  · exact ⟨_, _, h1, by decide⟩
  · refine ⟨'\\', _, h1, by decide⟩

theorem escapes_inj (plain : Char → Bool) {t u r r' : List Char}
    (h : t.flatMap (escape plain) ++ '"' :: r = u.flatMap (escape plain) ++ '"' :: r') : t = u ∧ r = r' := by
  induction t generalizing u with
  | nil =>
    cases u with
    | nil => simpa using h
    | cons d u =>
      obtain ⟨x, xs, h1, h2⟩ := escape_head plain d
      rw [List.flatMap_cons, h1] at h
      simp only [List.flatMap_nil, List.nil_append, List.cons_append, List.cons.injEq] at h
      exact absurd h.1.symm h2
  | cons c t ih =>
    cases u with
    | nil =>
      obtain ⟨x, xs, h1, h2⟩ := escape_head plain c
      rw [List.flatMap_cons, h1] at h
      simp only [List.flatMap_nil, List.nil_append, List.cons_append, List.cons.injEq] at h
      exact absurd h.1 h2
    | cons d u =>
      rw [List.flatMap_cons, List.flatMap_cons, List.append_assoc, List.append_assoc] at h
      obtain ⟨h1, h2⟩ := escape_inj plain h
      obtain ⟨h3, h4⟩ := ih h2
      exact ⟨by rw [h1, h3], h4⟩

theorem quoted_inj (plain : Char → Bool) {t u r r' : List Char} (h : quoted plain t ++ r = quoted plain u ++ r') : t = u ∧ r = r' := by
  unfold quoted at h
  simp only [List.append_assoc, List.cons_append, List.nil_append, List.cons.injEq, true_and] at h
  exact escapes_inj plain h

/-! ## Lists of things -/

/-- An entry can be read back when a comma or a bracket comes after it. -/
def Entry {α β : Type} (f : α → List Char) (v : α → β) : Prop :=
  (∀ x y c c' r r', (c = ',' ∨ c = ']') → (c' = ',' ∨ c' = ']') → f x ++ c :: r = f y ++ c' :: r' → v x = v y ∧ c :: r = c' :: r') ∧
  ∀ x, ∃ y ys, f x = y :: ys ∧ y ≠ ']'

theorem commas_inj {α β : Type} {f : α → List Char} {v : α → β} (hf : Entry f v) : ∀ (xs ys : List α) (r r' : List Char),
    commas (xs.map f) ++ ']' :: r = commas (ys.map f) ++ ']' :: r' → xs.map v = ys.map v ∧ r = r' := by
  intro xs
  induction xs with
  | nil =>
    intro ys r r' h
    cases ys with
    | nil => exact ⟨rfl, by simpa [commas] using h⟩
    | cons y ys =>
      obtain ⟨z, zs, h1, h2⟩ := hf.2 y
      cases ys with
      | nil =>
        simp only [List.map_nil, List.map_cons, commas, h1, List.nil_append, List.cons_append, List.cons.injEq] at h
        exact absurd h.1.symm h2
      | cons y' ys =>
        simp only [List.map_nil, List.map_cons, commas, h1, List.nil_append, List.cons_append, List.cons.injEq] at h
        exact absurd h.1.symm h2
  | cons x xs ih =>
    intro ys r r' h
    cases ys with
    | nil =>
      obtain ⟨z, zs, h1, h2⟩ := hf.2 x
      cases xs with
      | nil =>
        simp only [List.map_nil, List.map_cons, commas, h1, List.nil_append, List.cons_append, List.cons.injEq] at h
        exact absurd h.1 h2
      | cons y' ys =>
        simp only [List.map_nil, List.map_cons, commas, h1, List.nil_append, List.cons_append, List.cons.injEq] at h
        exact absurd h.1 h2
    | cons y ys =>
      cases xs with
      | nil =>
        cases ys with
        | nil =>
          simp only [List.map_nil, List.map_cons, commas] at h
          obtain ⟨h1, h2⟩ := hf.1 x y ']' ']' r r' (.inr rfl) (.inr rfl) h
          exact ⟨by simp [h1], by simpa using h2⟩
        | cons y' ys =>
          simp only [List.map_nil, List.map_cons, commas, List.append_assoc, List.cons_append, List.nil_append] at h
          obtain ⟨h1, h2⟩ := hf.1 x y ']' ',' _ _ (.inr rfl) (.inl rfl) h
          simp at h2
      | cons x' xs =>
        cases ys with
        | nil =>
          simp only [List.map_nil, List.map_cons, commas, List.append_assoc, List.cons_append, List.nil_append] at h
          obtain ⟨h1, h2⟩ := hf.1 x y ',' ']' _ _ (.inl rfl) (.inr rfl) h
          simp at h2
        | cons y' ys =>
          simp only [List.map_cons, commas, List.append_assoc, List.cons_append, List.nil_append] at h
          obtain ⟨h1, h2⟩ := hf.1 x y ',' ',' _ _ (.inl rfl) (.inl rfl) h
          simp only [List.cons.injEq, true_and] at h2
          obtain ⟨h3, h4⟩ := ih (y' :: ys) r r' (by simpa [commas] using h2)
          refine ⟨?_, h4⟩
          rw [List.map_cons, List.map_cons (l := y' :: ys), h1, h3]

theorem debugList_inj {α β : Type} {f : α → List Char} {v : α → β} (hf : Entry f v) {xs ys : List α} {r r' : List Char}
    (h : debugList (xs.map f) ++ r = debugList (ys.map f) ++ r') : xs.map v = ys.map v ∧ r = r' := by
  unfold debugList at h
  simp only [List.append_assoc, List.cons_append, List.nil_append, List.cons.injEq, true_and] at h
  exact commas_inj hf xs ys r r' h

theorem wordText_entry (plain : Char → Bool) : Entry (wordText plain) id := by
  constructor
  · intro x y c c' r r' hc hc' h
    unfold wordText at h
    simp only [List.append_assoc] at h
    obtain ⟨h1, h2⟩ := quoted_inj plain h
    simp only [List.cons_append, List.nil_append, List.cons.injEq, true_and] at h2
    obtain ⟨h3, h4⟩ := span_debug_inj (by rcases hc with rfl | rfl <;> decide) (by rcases hc' with rfl | rfl <;> decide) h2
    exact ⟨Prod.ext h1 h3, h4⟩
  · intro x
    exact ⟨'"', _, rfl, by decide⟩

/-! ## Names -/

/-- The names of classes of words have none of these characters. -/
theorem repr_chars (s : Selmaho) : s.asRepr ≠ [] ∧ ∀ c ∈ s.asRepr, c ≠ '"' ∧ c ≠ '*' ∧ c ≠ '@' ∧ c ≠ '\n' ∧ c ≠ ']' := by
  have : (Selmaho.all.all (fun s => !s.asRepr.isEmpty && s.asRepr.all (fun c => c != '"' && c != '*' && c != '@' && c != '\n' && c != ']'))) = true := by
    decide +kernel
  have := List.all_eq_true.mp this s (all_complete s)
  simp only [Bool.and_eq_true, List.all_eq_true, bne_iff_ne, Bool.not_eq_true', List.isEmpty_eq_false_iff] at this
  refine ⟨this.1, fun c hc => ?_⟩
  have := this.2 c hc
  exact ⟨this.1.1.1.1, this.1.1.1.2, this.1.1.2, this.1.2, this.2⟩

theorem ident_chars (s : Selmaho) : s.ident ≠ [] ∧ ∀ c ∈ s.ident, c ≠ ',' ∧ c ≠ ']' := by
  have : (Selmaho.all.all (fun s => !s.ident.isEmpty && s.ident.all (fun c => c != ',' && c != ']'))) = true := by
    decide +kernel
  have := List.all_eq_true.mp this s (all_complete s)
  simp only [Bool.and_eq_true, List.all_eq_true, bne_iff_ne, Bool.not_eq_true', List.isEmpty_eq_false_iff] at this
  exact this

theorem idents_distinct : distinct 200 0 (Selmaho.all.map (fun s => wordKey s.ident)) = true := by decide +kernel

theorem ident_inj {s t : Selmaho} (h : s.ident = t.ident) : s = t := by
  have hn := distinct_nodup _ _ _ idents_distinct
  have key : ∀ l : List Selmaho, (l.map (fun s => wordKey s.ident)).Nodup → ∀ s ∈ l, ∀ t ∈ l,
      s.ident = t.ident → s = t := by
    intro l
    induction l with
    | nil => simp
    | cons a l ih =>
      intro hn s hs t ht he
      simp only [List.map_cons, List.nodup_cons, List.mem_map, not_exists, not_and] at hn
      simp only [List.mem_cons] at hs ht
      rcases hs with rfl | hs <;> rcases ht with rfl | ht
      · rfl
      · exact absurd (by rw [he]) (hn.1 t ht)
      · exact absurd (by rw [he]) (hn.1 s hs)
      · exact ih hn.2 s hs t ht he
  exact key _ hn s (all_complete s) t (all_complete t) h

theorem ident_entry : Entry Selmaho.ident id := by
  constructor
  · intro x y c c' r r' hc hc' h
    have hq : ∀ s : Selmaho, ∀ x ∈ s.ident, (fun c => c != ',' && c != ']') x = true := by
      intro s x hx
      simpa using (ident_chars s).2 x hx
    obtain ⟨h1, h2⟩ := span_inj (q := fun c => c != ',' && c != ']') (hq x) (hq y)
      (by rcases hc with rfl | rfl <;> decide) (by rcases hc' with rfl | rfl <;> decide) h
    exact ⟨ident_inj h1, h2⟩
  · intro x
    obtain ⟨h1, h2⟩ := ident_chars x
    cases hx : x.ident with
    | nil => exact absurd hx h1
    | cons y ys => exact ⟨y, ys, rfl, (h2 y (by rw [hx]; simp)).2⟩

/-- A name without a star, then perhaps a star. -/
theorem star_inj {a b : List Char} {x y : Bool} (ha : '*' ∉ a) (hb : '*' ∉ b) (h : a ++ star x = b ++ star y) : a = b ∧ x = y := by
  cases x <;> cases y <;> simp only [star, if_true, Bool.false_eq_true, if_false, List.append_nil] at h
  · exact ⟨h, rfl⟩
  · exact absurd (by rw [h]; simp) ha
  · exact absurd (by rw [← h]; simp) hb
  · exact ⟨List.append_inj_left' h rfl, rfl⟩

theorem tokenText_entry (plain : Char → Bool) : Entry (tokenText plain) id := by
  constructor
  · intro x y c c' r r' _ _ h
    unfold tokenText wordText quoted at h
    have hq : ∀ (s : Selmaho) (e : Bool), ∀ x ∈ s.asRepr ++ star e ++ c!"(", (fun c => c != '"') x = true := by
      intro s e x hx
      rcases List.mem_append.mp hx with hx | hx
      · rcases List.mem_append.mp hx with hx | hx
        · simpa using ((repr_chars s).2 x hx).1
        · unfold star at hx
          split at hx
          · rw [List.mem_singleton.mp hx]
            decide
          · cases hx
      · rw [List.mem_singleton.mp hx]
        decide
    have h' : (x.1.selmaho.asRepr ++ star x.1.experimental ++ c!"(") ++ '"' :: (x.2.flatMap (escape plain) ++ '"' :: (c!" @ " ++ (x.1.span.debug ++ ')' :: (c :: r)))) =
      (y.1.selmaho.asRepr ++ star y.1.experimental ++ c!"(") ++ '"' :: (y.2.flatMap (escape plain) ++ '"' :: (c!" @ " ++ (y.1.span.debug ++ ')' :: (c' :: r')))) := by
      simpa only [List.append_assoc, List.cons_append, List.nil_append] using h
    obtain ⟨h1, h2⟩ := span_inj (q := fun c => c != '"') (hq _ _) (hq _ _) (by decide) (by decide) h'
    have h1' := List.append_cancel_right h1
    obtain ⟨h3, h4⟩ := star_inj (fun hs => ((repr_chars _).2 _ hs).2.1 rfl) (fun hs => ((repr_chars _).2 _ hs).2.1 rfl) h1'
    obtain ⟨h5, h6⟩ := escapes_inj plain (List.cons.inj h2).2
    obtain ⟨h7, h8⟩ := span_debug_inj (by decide) (by decide) (pre_inj _ h6)
    refine ⟨?_, by simpa using h8⟩
    obtain ⟨⟨xe, xs, xp⟩, xt⟩ := x
    obtain ⟨⟨ye, ys, yp⟩, yt⟩ := y
    simp only at h3 h4 h5 h7
    rw [C19_repr_injective _ _ h3, h4, h5, h7]
  · intro x
    obtain ⟨h1, h2⟩ := repr_chars x.1.selmaho
    unfold tokenText
    cases hx : x.1.selmaho.asRepr with
    | nil => exact absurd hx h1
    | cons y ys => exact ⟨y, _, rfl, (h2 y (by rw [hx]; simp)).2.2.2.2⟩

theorem debugBool_inj {a b : Bool} {r r' : List Char} (h : debugBool a ++ r = debugBool b ++ r') : a = b ∧ r = r' := by
  cases a <;> cases b <;> simp [debugBool] at h ⊢
  · exact h
  · exact h

theorem token_debug_inj {a b : Token} {r r' : List Char} (h : a.debug ++ r = b.debug ++ r') : a = b ∧ r = r' := by
  unfold Token.debug at h
  simp only [List.append_assoc] at h
  obtain ⟨h1, h2⟩ := debugBool_inj (pre_inj _ h)
  have h3 := pre_inj _ h2
  have h3' : a.selmaho.ident ++ ',' :: (c!" span: " ++ (a.span.debug ++ (c!" }" ++ r))) = b.selmaho.ident ++ ',' :: (c!" span: " ++ (b.span.debug ++ (c!" }" ++ r'))) := h3
  obtain ⟨h4, h5⟩ := ident_entry.1 _ _ ',' ',' _ _ (.inl rfl) (.inl rfl) h3'
  have h6 := pre_inj c!", span: " h5
  obtain ⟨h7, h8⟩ := span_debug_inj (by decide) (by decide) h6
  refine ⟨?_, by simpa using h8⟩
  obtain ⟨ae, as, ap⟩ := a
  obtain ⟨be, bs, bp⟩ := b
  simp only [id] at h1 h4 h7
  rw [h1, h4, h7]

theorem token_debug_entry : Entry Token.debug id := by
  constructor
  · intro x y c c' r r' _ _ h
    exact token_debug_inj h
  · intro x
    exact ⟨'T', _, rfl, by decide⟩

/-! ## Errors -/

theorem lexError_inj {a b : LexError} {r r' : List Char} (h : a.debug ++ r = b.debug ++ r') : a = b ∧ r = r' := by
  cases a <;> cases b <;> simp only [LexError.debug, List.append_assoc] at h
  · obtain ⟨h1, h2⟩ := span_debug_inj (by decide) (by decide) (pre_inj _ h)
    exact ⟨by rw [h1], by simpa using h2⟩
  · simp at h
  · simp at h
  · simp at h
  · obtain ⟨h1, h2⟩ := span_debug_inj (by decide) (by decide) (pre_inj _ h)
    obtain ⟨h3, h4⟩ := span_debug_inj (by decide) (by decide) (pre_inj c!", starting_delimiter_span: " h2)
    exact ⟨by rw [h1, h3], by simpa using h4⟩
  · simp at h
  · simp at h
  · simp at h
  · obtain ⟨h1, h2⟩ := span_debug_inj (by decide) (by decide) (pre_inj _ h)
    exact ⟨by rw [h1], by simpa using h2⟩

theorem got_inj {a b : Option Token} {r r' : List Char} (h : debugGot a ++ r = debugGot b ++ r') : a = b ∧ r = r' := by
  cases a <;> cases b <;> simp only [debugGot, List.append_assoc] at h
  · exact ⟨rfl, pre_inj _ h⟩
  · simp at h
  · simp at h
  · obtain ⟨h1, h2⟩ := token_debug_inj (pre_inj _ h)
    exact ⟨by rw [h1], by simpa using h2⟩

theorem error_inj (s : Surroundings) {a b : CstError} {r r' : List Char} (h : a.debug s ++ r = b.debug s ++ r') :
    errorSays s a = errorSays s b ∧ r = r' := by
  cases a <;> cases b <;> simp only [CstError.debug, List.append_assoc] at h
  case expectedGot.expectedGot =>
    obtain ⟨h1, h2⟩ := debugList_inj ident_entry (pre_inj _ h)
    obtain ⟨h3, h4⟩ := got_inj (pre_inj _ h2)
    simp only [List.map_id] at h1
    exact ⟨by rw [h1, h3], pre_inj _ h4⟩
  case postConditionFailed.postConditionFailed =>
    obtain ⟨h1, h2⟩ := quoted_inj s.plain (pre_inj _ h)
    exact ⟨rfl, pre_inj _ h2⟩
  case nom.nom k l =>
    have h1 := pre_inj _ h
    cases k <;> cases l <;> simp [NomKind.debug] at h1 <;> exact ⟨rfl, h1⟩
  case empty.empty =>
    obtain ⟨h1, h2⟩ := quoted_inj s.plain (pre_inj _ h)
    exact ⟨by simp only [errorSays, h1], pre_inj _ h2⟩
  all_goals simp at h

theorem located_inj (s : Surroundings) {a b : Located} {r r' : List Char} (h : a.debug s ++ r = b.debug s ++ r') :
    (a.location.list = b.location.list ∧ errorSays s a.error = errorSays s b.error) ∧ r = r' := by
  unfold Located.debug at h
  simp only [List.append_assoc] at h
  obtain ⟨h1, h2⟩ := debugList_inj token_debug_entry (pre_inj _ h)
  obtain ⟨h3, h4⟩ := error_inj s (pre_inj _ h2)
  simp only [List.map_id] at h1
  exact ⟨⟨h1, h3⟩, pre_inj _ h4⟩

/-! ## Lines of the tree -/

/-- The first characters of what is printed, other than lines of the tree. -/
def headers : List (List Char) :=
  [c!"Decomposed: ", c!"Lexing error: ", c!"Lexed: ", c!"The token ", c!"Parse error: ", c!"size of CST arena: "]

/-- What is used of the names in the tree. -/
def nameOk (n : List Char) : Bool :=
  !n.isEmpty && n.head? != some ' ' && n.all (fun c => c != '*' && c != '@' && c != '\n') &&
    headers.all (fun h => [' ', '*', '\n'].all (fun c => !(n ++ [c]).isPrefixOf h && !h.isPrefixOf (n ++ [c])))

theorem label_ok (l : Label) (h : l ≠ .other) : nameOk l.text = true := by
  cases l with
  | node n =>
    cases n with
    | word s =>
      have : (Selmaho.all.all (fun s => nameOk s.ident)) = true := by decide +kernel
      exact List.all_eq_true.mp this s (all_complete s)
    | _ => decide +kernel
  | token s =>
    have : (Selmaho.all.all (fun s => nameOk s.asRepr)) = true := by decide +kernel
    exact List.all_eq_true.mp this s (all_complete s)
  | other => exact absurd rfl h
  | _ => decide +kernel

theorem nameOk_spec {n : List Char} (h : nameOk n = true) : (∃ c cs, n = c :: cs ∧ c ≠ ' ') ∧ (∀ c ∈ n, c ≠ '*' ∧ c ≠ '@' ∧ c ≠ '\n') ∧
    ∀ hd ∈ headers, ∀ c ∈ [' ', '*', '\n'], ∀ r r', n ++ c :: r ≠ hd ++ r' := by
  unfold nameOk at h
  simp only [Bool.and_eq_true, List.all_eq_true, bne_iff_ne, Bool.not_eq_true', List.isEmpty_eq_false_iff] at h
  obtain ⟨⟨⟨h1, h2⟩, h3⟩, h4⟩ := h
  refine ⟨?_, fun c hc => ⟨(h3 c hc).1.1, (h3 c hc).1.2, (h3 c hc).2⟩, ?_⟩
  · cases n with
    | nil => exact absurd rfl h1
    | cons c cs =>
      refine ⟨c, cs, rfl, ?_⟩
      rintro rfl
      exact h2 rfl
  · intro hd hhd c hc r r' he
    have h5 := h4 hd hhd c hc
    have : (n ++ [c]) ++ r = hd ++ r' := by
      simpa using he
    rcases compat this with h6 | h6
    · rw [List.isPrefixOf_iff_prefix.mpr h6] at h5
      simp at h5
    · rw [List.isPrefixOf_iff_prefix.mpr h6] at h5
      simp at h5

/-- The place of a line, up to the end of the line. -/
def placeText (plain : Char → Bool) : Option (Span × List Char) → List Char
  | none => []
  | some (span, text) => c!" @ " ++ span.debug ++ c!" " ++ quoted plain text

theorem line_text (plain : Char → Bool) (l : Line) : l.text plain =
    List.replicate l.level ' ' ++ l.label.text ++ star l.experimental ++ placeText plain l.place ++ c!"\n" := by
  unfold Line.text placeText
  cases l.place <;> rfl

theorem star_chars {x : Bool} {c : Char} (h : c ∈ star x) : c = '*' := by
  unfold star at h
  split at h
  · exact List.mem_singleton.mp h
  · cases h

theorem line_inj (plain : Char → Bool) {a b : Line} (ha : a.label ≠ .other) (hb : b.label ≠ .other) {r r' : List Char}
    (h : a.text plain ++ r = b.text plain ++ r') : lineSays a = lineSays b ∧ r = r' := by
  obtain ⟨⟨x, xs, hx1, hx2⟩, hx3, _⟩ := nameOk_spec (label_ok a.label ha)
  obtain ⟨⟨y, ys, hy1, hy2⟩, hy3, _⟩ := nameOk_spec (label_ok b.label hb)
  rw [line_text, line_text] at h
  simp only [List.append_assoc] at h
  have hrep : ∀ n, ∀ c ∈ List.replicate n ' ', (fun c => c == ' ') c = true := by
    intro n c hc
    simp [List.eq_of_mem_replicate hc]
  rw [hx1, hy1] at h
  simp only [List.cons_append] at h
  obtain ⟨h1, h2⟩ := span_inj (q := fun c => c == ' ') (hrep _) (hrep _) (by simpa using hx2) (by simpa using hy2) h
  have hlev : a.level = b.level := by
    have := congrArg List.length h1
    simpa using this
  have h2 : a.label.text ++ (star a.experimental ++ (placeText plain a.place ++ (c!"\n" ++ r))) =
      b.label.text ++ (star b.experimental ++ (placeText plain b.place ++ (c!"\n" ++ r'))) := by
    rw [hx1, hy1]
    exact h2
  -- the name and the star, up to the place or the end of the line
  have hq : ∀ (n : List Char) (e : Bool), (∀ c ∈ n, c ≠ '*' ∧ c ≠ '@' ∧ c ≠ '\n') → ∀ c ∈ n ++ star e, (fun c => c != '@' && c != '\n') c = true := by
    intro n e hn c hc
    rcases List.mem_append.mp hc with hc | hc
    · have := hn c hc
      simp [this.2.1, this.2.2]
    · rw [star_chars hc]
      decide
  have hq' : ∀ (n : List Char) (e : Bool), (∀ c ∈ n, c ≠ '*' ∧ c ≠ '@' ∧ c ≠ '\n') → ∀ c ∈ n ++ star e ++ c!" ", (fun c => c != '@' && c != '\n') c = true := by
    intro n e hn c hc
    rcases List.mem_append.mp hc with hc | hc
    · exact hq n e hn c hc
    · rw [List.mem_singleton.mp hc]
      decide
  have hfin : ∀ {n m : List Char} {e f : Bool}, (∀ c ∈ n, c ≠ '*' ∧ c ≠ '@' ∧ c ≠ '\n') → (∀ c ∈ m, c ≠ '*' ∧ c ≠ '@' ∧ c ≠ '\n') →
      n ++ star e = m ++ star f → n = m ∧ e = f := by
    intro n m e f hn hm he
    exact star_inj (fun hc => (hn _ hc).1 rfl) (fun hc => (hm _ hc).1 rfl) he
  cases hpa : a.place with
  | none =>
    cases hpb : b.place with
    | none =>
      rw [hpa, hpb] at h2
      have h2' : (a.label.text ++ star a.experimental) ++ '\n' :: r = (b.label.text ++ star b.experimental) ++ '\n' :: r' := by
        simpa [placeText] using h2
      obtain ⟨h3, h4⟩ := span_inj (q := fun c => c != '@' && c != '\n') (hq _ _ hx3) (hq _ _ hy3) (by decide) (by decide) h2'
      obtain ⟨h5, h6⟩ := hfin hx3 hy3 h3
      refine ⟨?_, by simpa using h4⟩
      simp only [lineSays, hlev, h5, h6, hpa, hpb]
    | some pb =>
      obtain ⟨sb, tb⟩ := pb
      rw [hpa, hpb] at h2
      have h2' : (a.label.text ++ star a.experimental) ++ '\n' :: r = (b.label.text ++ star b.experimental ++ c!" ") ++ '@' :: (c!" " ++ (sb.debug ++ (c!" " ++ (quoted plain tb ++ '\n' :: r')))) := by
        simpa [placeText] using h2
      obtain ⟨_, h4⟩ := span_inj (q := fun c => c != '@' && c != '\n') (hq _ _ hx3) (hq' _ _ hy3) (by decide) (by decide) h2'
      simp at h4
  | some pa =>
    obtain ⟨sa, ta⟩ := pa
    cases hpb : b.place with
    | none =>
      rw [hpa, hpb] at h2
      have h2' : (a.label.text ++ star a.experimental ++ c!" ") ++ '@' :: (c!" " ++ (sa.debug ++ (c!" " ++ (quoted plain ta ++ '\n' :: r)))) = (b.label.text ++ star b.experimental) ++ '\n' :: r' := by
        simpa [placeText] using h2
      obtain ⟨_, h4⟩ := span_inj (q := fun c => c != '@' && c != '\n') (hq' _ _ hx3) (hq _ _ hy3) (by decide) (by decide) h2'
      simp at h4
    | some pb =>
      obtain ⟨sb, tb⟩ := pb
      rw [hpa, hpb] at h2
      have h2' : (a.label.text ++ star a.experimental ++ c!" ") ++ '@' :: (c!" " ++ (sa.debug ++ (c!" " ++ (quoted plain ta ++ '\n' :: r)))) =
          (b.label.text ++ star b.experimental ++ c!" ") ++ '@' :: (c!" " ++ (sb.debug ++ (c!" " ++ (quoted plain tb ++ '\n' :: r')))) := by
        simpa [placeText] using h2
      obtain ⟨h3, h4⟩ := span_inj (q := fun c => c != '@' && c != '\n') (hq' _ _ hx3) (hq' _ _ hy3) (by decide) (by decide) h2'
      obtain ⟨h5, h6⟩ := hfin hx3 hy3 (List.append_cancel_right h3)
      have h7 := pre_inj c!"@ " h4
      obtain ⟨h8, h9⟩ := span_debug_inj (by decide) (by decide) h7
      obtain ⟨h10, h11⟩ := quoted_inj plain (pre_inj c!" " h9)
      refine ⟨?_, by simpa using h11⟩
      simp only [lineSays, hlev, h5, h6, hpa, hpb, h8, h10]

/-- A line of the tree does not begin like anything else that is printed. -/
theorem line_not_header (plain : Char → Bool) {a : Line} (ha : a.label ≠ .other) {hd : List Char} (hh : hd ∈ headers) (r r' : List Char) :
    a.text plain ++ r ≠ hd ++ r' := by
  intro h
  obtain ⟨_, _, hx⟩ := nameOk_spec (label_ok a.label ha)
  rw [line_text] at h
  simp only [List.append_assoc] at h
  cases hl : a.level with
  | succ n =>
    rw [hl, List.replicate_succ] at h
    have : ∀ hd ∈ headers, ∃ c cs, hd = c :: cs ∧ c ≠ ' ' := by
      intro hd hh
      have hb : headers.all (fun h => !h.isEmpty && h.head? != some ' ') = true := by decide
      have := List.all_eq_true.mp hb hd hh
      cases hd with
      | nil => simp at this
      | cons c cs => exact ⟨c, cs, rfl, by simpa using this⟩
    obtain ⟨c, cs, h1, h2⟩ := this hd hh
    rw [h1] at h
    simp only [List.cons_append, List.cons.injEq] at h
    exact h2 h.1.symm
  | zero =>
    rw [hl, List.replicate_zero, List.nil_append] at h
    have key : ∃ c ∈ [' ', '*', '\n'], ∃ q, star a.experimental ++ (placeText plain a.place ++ (c!"\n" ++ r)) = c :: q := by
      cases a.experimental with
      | true => exact ⟨'*', by decide, _, rfl⟩
      | false =>
        cases a.place with
        | none => exact ⟨'\n', by decide, _, rfl⟩
        | some p => exact ⟨' ', by decide, _, rfl⟩
    obtain ⟨c, hc, q, hq⟩ := key
    rw [hq] at h
    exact hx hd hh c hc q r' h

theorem lines_inj (plain : Char → Bool) : ∀ {as bs : List Line} (_ : ∀ l ∈ as, l.label ≠ .other) (_ : ∀ l ∈ bs, l.label ≠ .other)
    {r r' : List Char}, as.flatMap (Line.text plain) ++ (c!"size of CST arena: " ++ r) = bs.flatMap (Line.text plain) ++ (c!"size of CST arena: " ++ r') →
    as.map lineSays = bs.map lineSays ∧ r = r' := by
  intro as
  induction as with
  | nil =>
    intro bs _ hb r r' h
    cases bs with
    | nil => exact ⟨rfl, pre_inj _ h⟩
    | cons b bs =>
      rw [List.flatMap_cons, List.append_assoc] at h
      exact absurd h.symm (line_not_header plain (hb b (by simp)) (hd := c!"size of CST arena: ") (by decide) _ _)
  | cons a as ih =>
    intro bs ha hb r r' h
    cases bs with
    | nil =>
      rw [List.flatMap_cons, List.append_assoc] at h
      exact absurd h (line_not_header plain (ha a (by simp)) (hd := c!"size of CST arena: ") (by decide) _ _)
    | cons b bs =>
      rw [List.flatMap_cons, List.append_assoc, List.flatMap_cons, List.append_assoc] at h
      obtain ⟨h1, h2⟩ := line_inj plain (ha a (by simp)) (hb b (by simp)) h
      obtain ⟨h3, h4⟩ := ih (fun l hl => ha l (by simp [hl])) (fun l hl => hb l (by simp [hl])) h2
      exact ⟨by rw [List.map_cons, List.map_cons, h1, h3], h4⟩

/-! ## Outputs -/

/-- Every line has a name. -/
def Named : Output → Prop
  | .tree lines => ∀ l ∈ lines, l.label ≠ .other
  | _ => True

theorem tree_not_header (s : Surroundings) {lines : List Line} (h : Named (.tree lines)) (n : Nat) {hd : List Char}
    (hh : hd ∈ headers) (hs : hd ≠ c!"size of CST arena: ") (r r' : List Char) : (Output.tree lines).text s n ++ r ≠ hd ++ r' := by
  intro he
  cases lines with
  | nil =>
    have h1 : c!"size of CST arena: " ++ (decimal n ++ c!"\n" ++ r) = hd ++ r' := by
      simpa only [Output.text, List.flatMap_nil, List.nil_append, List.append_assoc] using he
    have hall : ∀ hd ∈ headers, hd ≠ c!"size of CST arena: " → ¬ hd <+: c!"size of CST arena: " ∧ ¬ c!"size of CST arena: " <+: hd := by
      decide
    have := hall hd hh hs
    rcases compat h1 with h2 | h2
    · exact this.2 h2
    · exact this.1 h2
  | cons l ls =>
    simp only [Output.text, List.flatMap_cons, List.append_assoc] at he
    exact line_not_header s.plain (h l (by simp)) hh _ _ he

theorem output_inj (s : Surroundings) {a b : Output} (ha : Named a) (hb : Named b) {n m : Nat} {r r' : List Char}
    (h : a.text s n ++ r = b.text s m ++ r') : says s a = says s b ∧ r = r' := by
  have arena : ∀ {r r' : List Char}, decimal n ++ (c!"\n" ++ r) = decimal m ++ (c!"\n" ++ r') → r = r' := by
    intro r r' h
    obtain ⟨_, h2⟩ := decimal_inj (by decide) (by decide) h
    simpa using h2
  cases a with
  | tree as =>
    cases b with
    | tree bs =>
      simp only [Output.text, List.append_assoc] at h
      obtain ⟨h1, h2⟩ := lines_inj s.plain ha hb h
      exact ⟨by simp only [says, h1], arena h2⟩
    | decomposed ws =>
      exact absurd (by simpa only [Output.text, List.append_assoc] using h) (tree_not_header s ha n (hd := c!"Decomposed: ") (by decide) (by decide) r _)
    | lexingError e =>
      exact absurd (by simpa only [Output.text, List.append_assoc] using h) (tree_not_header s ha n (hd := c!"Lexing error: ") (by decide) (by decide) r _)
    | lexed ts =>
      exact absurd (by simpa only [Output.text, List.append_assoc] using h) (tree_not_header s ha n (hd := c!"Lexed: ") (by decide) (by decide) r _)
    | notLexable t c =>
      exact absurd (by simpa only [Output.text, List.append_assoc] using h) (tree_not_header s ha n (hd := c!"The token ") (by decide) (by decide) r _)
    | parseError e =>
      exact absurd (by simpa only [Output.text, List.append_assoc] using h) (tree_not_header s ha n (hd := c!"Parse error: ") (by decide) (by decide) r _)
  | decomposed ws =>
    cases b with
    | decomposed ws' =>
      simp only [Output.text, List.append_assoc] at h
      obtain ⟨h1, h2⟩ := debugList_inj (wordText_entry s.plain) (pre_inj _ h)
      simp only [List.map_id] at h1
      exact ⟨by simp only [says, h1], pre_inj _ h2⟩
    | tree bs =>
      exact absurd (by simpa only [Output.text, List.append_assoc] using h.symm) (tree_not_header s hb m (hd := c!"Decomposed: ") (by decide) (by decide) r' _)
    | _ => simp [Output.text] at h
  | lexingError e =>
    cases b with
    | lexingError e' =>
      simp only [Output.text, List.append_assoc] at h
      obtain ⟨h1, h2⟩ := lexError_inj (pre_inj _ h)
      exact ⟨by simp only [says, h1], pre_inj _ h2⟩
    | tree bs =>
      exact absurd (by simpa only [Output.text, List.append_assoc] using h.symm) (tree_not_header s hb m (hd := c!"Lexing error: ") (by decide) (by decide) r' _)
    | _ => simp [Output.text] at h
  | lexed ts =>
    cases b with
    | lexed ts' =>
      simp only [Output.text, List.append_assoc] at h
      obtain ⟨h1, h2⟩ := debugList_inj (tokenText_entry s.plain) (pre_inj _ h)
      simp only [List.map_id] at h1
      exact ⟨by simp only [says, h1], pre_inj _ h2⟩
    | tree bs =>
      exact absurd (by simpa only [Output.text, List.append_assoc] using h.symm) (tree_not_header s hb m (hd := c!"Lexed: ") (by decide) (by decide) r' _)
    | _ => simp [Output.text] at h
  | notLexable t c =>
    cases b with
    | notLexable t' c' =>
      simp only [Output.text, List.append_assoc] at h
      obtain ⟨h1, h2⟩ := token_debug_inj (pre_inj _ h)
      obtain ⟨h3, h4⟩ := quoted_inj s.plain (pre_inj _ h2)
      exact ⟨by simp only [says, h1, h3], arena (pre_inj _ (pre_inj _ h4))⟩
    | tree bs =>
      exact absurd (by simpa only [Output.text, List.append_assoc] using h.symm) (tree_not_header s hb m (hd := c!"The token ") (by decide) (by decide) r' _)
    | _ => simp [Output.text] at h
  | parseError e =>
    cases b with
    | parseError e' =>
      simp only [Output.text, List.append_assoc] at h
      obtain ⟨⟨h1, h2⟩, h3⟩ := located_inj s (pre_inj _ h)
      exact ⟨by simp only [says, h1, h2], arena (pre_inj _ (pre_inj _ h3))⟩
    | tree bs =>
      exact absurd (by simpa only [Output.text, List.append_assoc] using h.symm) (tree_not_header s hb m (hd := c!"Parse error: ") (by decide) (by decide) r' _)
    | _ => simp [Output.text] at h

theorem output_ne_nil (s : Surroundings) (n : Nat) (o : Output) : o.text s n ≠ [] := by
  cases o <;> simp [Output.text]

theorem outputs_inj (s : Surroundings) {n m : Nat} : ∀ {as bs : List Output}, (∀ o ∈ as, Named o) → (∀ o ∈ bs, Named o) →
    as.flatMap (Output.text s n) = bs.flatMap (Output.text s m) → as.map (says s) = bs.map (says s) := by
  intro as
  induction as with
  | nil =>
    intro bs _ _ h
    cases bs with
    | nil => rfl
    | cons b bs =>
      rw [List.flatMap_cons, List.flatMap_nil] at h
      exact absurd (List.append_eq_nil_iff.mp h.symm).1 (output_ne_nil s m b)
  | cons a as ih =>
    intro bs ha hb h
    cases bs with
    | nil =>
      rw [List.flatMap_cons, List.flatMap_nil] at h
      exact absurd (List.append_eq_nil_iff.mp h).1 (output_ne_nil s n a)
    | cons b bs =>
      rw [List.flatMap_cons, List.flatMap_cons] at h
      obtain ⟨h1, h2⟩ := output_inj s (ha a (by simp)) (hb b (by simp)) h
      rw [List.map_cons, List.map_cons, h1, ih (fun o ho => ha o (by simp [ho])) (fun o ho => hb o (by simp [ho])) h2]

end Sneturfahi.ReadBack
