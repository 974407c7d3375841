import Verif.Proof.ElideTabs

/-!
# Leaving out the last word: the certificates
-/

namespace Sneturfahi.Elide

open Spec

/-! ### The certificates -/

/-- The words of an indicator. -/
def trailing : List Selmaho := Selmaho.Fuhe :: decorating

def onlyR : CRule → Bool
  | .word x => trailing.contains x
  | .Indicators | .Indicator => true
  | _ => false

def onlyG : Gr → Bool
  | .eps => true
  | .not _ => true
  | .raw x => trailing.contains x
  | .call r => onlyR r
  | .seq a b => onlyG a && onlyG b
  | .alt a b => onlyG a && onlyG b
  | .opt a => onlyG a
  | .many0 a => onlyG a
  | .many1 a => onlyG a
  | .mustConsume _ a => onlyG a
  | .cut a => onlyG a
  | .postCond _ a => onlyG a
  | .wrap _ a => onlyG a
  | _ => false

theorem onlyR_ok (r : CRule) (h : onlyR r = true) : onlyG (cst r) = true := by
  revert h
  cases r with
  | word x => cases x <;> decide
  | _ => decide

/-- What is read consists of such words. -/
def Read (s : List Token) (o : Outcome) : Prop :=
  ∀ r vs, o = .ok r vs → ∃ w, s = w ++ r ∧ ∀ u ∈ w, u.selmaho ∈ trailing

theorem Read.app {s r : List Token} {vs : List Val} {o : Outcome} (h1 : Read s (.ok r vs)) (h2 : Read r o) : Read s o := by
  intro r' vs' he
  obtain ⟨w1, rfl, hw1⟩ := h1 _ _ rfl
  obtain ⟨w2, rfl, hw2⟩ := h2 _ _ he
  refine ⟨w1 ++ w2, by simp, fun u hu => ?_⟩
  rcases List.mem_append.mp hu with hu | hu
  · exact hw1 u hu
  · exact hw2 u hu

theorem Read.vals {s r : List Token} {vs vs' : List Val} (h : Read s (.ok r vs)) : Read s (.ok r vs') := by
  intro r' ws he
  cases he
  exact h _ _ rfl

theorem Read.none {s : List Token} {vs : List Val} : Read s (.ok s vs) := by
  intro r' ws he
  cases he
  exact ⟨[], rfl, nofun⟩

theorem only {e : Gr} {s : List Token} {o : Outcome} (h : Peg cst e s o) : onlyG e = true → Read s o := by
  induction h with
  | raw hx =>
    intro h r' vs' he
    cases he
    refine ⟨[_], rfl, fun u hu => ?_⟩
    rw [List.mem_singleton.mp hu, hx]
    simpa [onlyG] using h
  | call _ ih => intro h; exact ih (onlyR_ok _ h)
  | seq h1 h2 ih1 ih2 =>
    intro h
    simp only [onlyG, Bool.and_eq_true] at h
    exact (ih1 h.1).app (ih2 h.2).vals
  | many0More h1 hl h2 ih1 ih2 => intro h; exact (ih1 h).app (ih2 h).vals
  | many1 h1 h2 ih1 ih2 => intro h; exact (ih1 h).app (ih2 h).vals
  | _ => first
    | (intro h; exact Read.none)
    | (intro h; simp only [onlyG, Bool.and_eq_true, Bool.false_eq_true] at h; done)
    | (intro h; intro _ _ he; cases he; done)
    | (intro h; rename_i ih; exact (ih h).vals; done)
    | grind [onlyG, Outcome.Bad, Read]

theorem cert_of {k : Tabs} {t : Token} {P : List Token → Prop} (hc : ∀ r, checks k r = true) (hn : k.null = nullR)
    (h1 : ∀ x, k.closer x = false → t.selmaho ≠ x) (h2 : ∀ x, k.out x = true → t.selmaho ≠ x)
    (h3 : ∀ w r, P (w ++ r) → P r) (h4 : ∀ s x u, P s → k.out x = true → u ∈ s → u.selmaho ≠ x)
    (h5 : ∀ s u, P s → s.getLast? = some u → u.selmaho ≠ .Bahe)
    (h6 : ∀ s x vs, P s → k.fin x = true → ¬ Peg cst (.call (.word x)) s (.ok [] vs))
    (h7 : ∀ x, k.out x = true → k.dead (.word x) = true) : Cert k t P := by
  have hc' := fun r => hc r
  simp only [checks, Bool.and_eq_true, Bool.or_eq_true, Bool.not_eq_true'] at hc'
  refine ⟨h1, h2, h3, h4, h5, h6, h7, ?_, ?_, ?_, ?_, ?_, ?_, ?_⟩
  · intro r hr; have := hc' r; grind
  · intro r hr hd; have := hc' r; simp only [deadG] at hd; grind
  · intro r hr; have := hc' r; grind
  · intro r hr; rw [hn] at hr; exact nullR_peg r hr
  · intro r o h; exact calm_peg r o h
  · intro r hr; have := hc' r; grind
  · intro r; exact (hc' r).2

theorem last_tail {w r : List Token} {u : Token} (h : r.getLast? = some u) : (w ++ r).getLast? = some u := by
  rw [List.getLast?_append, h]; rfl

/-- Without certain words, and without `ba'e` at the end. -/
structure Free (out : List Selmaho) (s : List Token) : Prop where
  plain : ∀ t ∈ s, t.selmaho ∉ out
  last : ∀ t, s.getLast? = some t → t.selmaho ≠ .Bahe

theorem Free.tail {out : List Selmaho} (w r : List Token) (h : Free out (w ++ r)) : Free out r :=
  ⟨fun t ht => h.plain t (by simp [ht]), fun t ht => h.last t (last_tail ht)⟩

theorem cert1 {t : Token} (ht : t.selmaho ∈ closing) : Cert tabs1 t (Free quotingWords) := by
  refine cert_of checks1 rfl ?_ ?_ Free.tail ?_ (fun s u hs hu => hs.last u hu) ?_ ?_
  · rintro x hx rfl
    simp only [tabs1, tabs, List.contains_eq_mem, decide_eq_false_iff_not] at hx
    exact hx ht
  · rintro x hx rfl
    simp only [tabs1, tabs, List.contains_eq_mem, decide_eq_true_eq] at hx
    revert ht hx
    generalize t.selmaho = x
    cases x <;> decide
  · rintro s x u hs hx hu rfl
    simp only [tabs1, tabs, List.contains_eq_mem, decide_eq_true_eq] at hx
    exact hs.plain u hu hx
  · intro s x vs hs hx
    cases hx
  · intro x hx
    exact hx

theorem cert3 {t : Token} (ht : t.selmaho = .Kehe) : Cert tabs3 t (Free ([.Vuhu, .Nahu, .Maho] ++ quotingWords)) := by
  refine cert_of checks3 rfl ?_ ?_ Free.tail ?_ (fun s u hs hu => hs.last u hu) ?_ ?_
  · rintro x hx rfl
    rw [ht] at hx; cases hx
  · rintro x hx rfl
    rw [ht] at hx; cases hx
  · rintro s x u hs hx hu rfl
    simp only [tabs3, tabs, List.contains_eq_mem, decide_eq_true_eq] at hx
    have := hs.plain u hu
    revert hx this
    generalize u.selmaho = x
    cases x <;> decide
  · intro s x vs hs hx
    cases hx
  · intro x hx
    exact hx

theorem na_last {s : List Token} {vs : List Val} (h : Peg cst (.call (.word .Na)) s (.ok [] vs)) : EndsWithNa s := by
  have hb : cst (.word .Na) = .wrap (.node (.word .Na)) (.seq (.many0 (.call (.word .Bahe))) (.seq (.raw .Na)
      (.seq (.opt (.call .Indicators)) (.seq (.not (.call (.word .Bu))) (.not (.call (.word .Zei))))))) := rfl
  cases h with
  | call h =>
    rw [hb] at h
    cases h with
    | wrapBad _ hb => exact hb.elim
    | wrap h =>
      cases h with
      | seqFirst _ hb => exact hb.elim
      | seqSecond _ _ hb => exact hb.elim
      | seq h1 h2 =>
        cases h2 with
        | seqFirst _ hb => exact hb.elim
        | seqSecond _ _ hb => exact hb.elim
        | seq h2 h3 =>
          cases h2 with
          | raw hx =>
            obtain ⟨w, hw, hw'⟩ := only h3 (by decide) _ _ rfl
            have := h1.cuts _ _ rfl
            rw [List.append_nil] at hw
            subst hw
            exact ⟨_, _, _, this, hx, hw'⟩

theorem cert2 {t : Token} (ht : t.selmaho = .Ku) : Cert tabs2 t (fun s => Free quotingWords s ∧ ¬ EndsWithNa s) := by
  refine cert_of checks2 rfl ?_ ?_ ?_ ?_ (fun s u hs hu => hs.1.last u hu) ?_ ?_
  · rintro x hx rfl
    rw [ht] at hx; cases hx
  · rintro x hx rfl
    rw [ht] at hx; cases hx
  · rintro w r ⟨h1, h2⟩
    refine ⟨h1.tail, ?_⟩
    rintro ⟨b, n, us, rfl, hn, hu⟩
    exact h2 ⟨w ++ b, n, us, by simp, hn, hu⟩
  · rintro s x u hs hx hu rfl
    simp only [tabs2, tabs, List.contains_eq_mem, decide_eq_true_eq] at hx
    exact hs.1.plain u hu hx
  · intro s x vs hs hx h
    have : x = .Na := by
      revert hx
      cases x <;> decide
    subst this
    exact hs.2 (na_last h)
  · intro x hx
    exact hx

/-- The text without its last word. -/
theorem dropLast {k : Tabs} {t : Token} {P : List Token → Prop} (hk : Cert k t P) (hg : k.gone .Text = false) {A : List Token} (hA : P A)
    {root : Val} (h : Peg cst (.call .Text) (A ++ [t]) (.ok [] [root])) {o : Outcome} (ho : Peg cst (.call .Text) A o) :
    ∃ vs, o = .ok [] vs ∧ DroppedL t [root] vs := by
  have := claims hk h A rfl hA rfl o ho
  generalize hn : ([] : List Token) = nl at this
  generalize isMany (.call .Text) = m at this
  cases this with
  | same => simp at hn
  | drop _ _ hv => exact ⟨_, rfl, hv⟩
  | gone hg' => simp [goneG, hg] at hg'

end Sneturfahi.Elide
