import Verif.Proof.Elide
import Verif.Proof.CstNull
import Verif.Proof.CstJoin
import Verif.Proof.CstWF

/-!
# A word twice: the argument

If a word of selma'o `κ` stands in a text, and another one of that selma'o is put before it, the text is read in the same way up to
the first of the two; what is read there ends after it, and the second one is read by the repetition around it. A certificate on the
productions, checked for each selma'o, is shown to be enough, by induction over how the text is read.
-/

namespace Sneturfahi.Dup

open Spec Elide

/-- What is claimed about productions, as tables. -/
structure Tabs where
  /-- the selma'o of the word -/
  kind : Selmaho
  /-- what becomes of a production before such a word -/
  halt : CRule → Halt
  /-- may end after the first of two such words where it would go on without it -/
  spl : CRule → Bool

/-- The words that quote, or that make something else of the word before them. -/
def outs : List Selmaho := [.Bu, .Zei, .Zo, .Zoi, .Lohu]

def Clean (s : List Token) : Prop := ∀ t ∈ s, t.selmaho ∉ outs

/-- Does not commit to anything. -/
def mildR : CRule → Bool
  | .BuInner => true
  | .ZeiTail => true
  | .ZeiBuInner => true
  | r => wordish r

/-- Never applies to a text without quotes. -/
def offR : CRule → Bool
  | .word x => outs.contains x
  | .ZeiTail => true
  | .ZeiBuInner => true
  | .ZeiClause => true
  | .ZoSumti => true
  | .ZoiSumti => true
  | .LohuSumti => true
  | _ => false

def offG : Gr → Bool
  | .call r => offR r
  | .seq a b => offG a || (mildG mildR a && offG b)
  | .alt a b => offG a && offG b
  | .many1 a => offG a
  | .postCond _ a => offG a
  | .mustConsume _ a => offG a
  | .wrap _ a => offG a
  | _ => false

/-- Reads at least one word. -/
def consK : Gr → Bool
  | .raw _ => true
  | .any _ => true
  | .call r => cstConsumes r
  | .seq a b => consK a || consK b
  | .alt a b => consK a && consK b
  | .many1 a => consK a
  | .cut a => consK a
  | .postCond _ a => consK a
  | .wrap _ a => consK a
  | .mustConsume _ _ => true
  | _ => false

/-- Always applies (or fails for good). -/
def nevK : Gr → Bool
  | .eps => true
  | .call r => errTables.never r
  | .seq a b => nevK a && nevK b
  | .opt _ => true
  | .many0 a => consK a
  | .not a => offG a
  | .wrap _ a => nevK a
  | _ => false

/-- Reads any word; only within quotes, and before `bu` and `zei`. -/
def hidden : CRule → Bool
  | .BuInner => true
  | .ZoiDelimiter => true
  | .ZoiText => true
  | _ => false

variable (k : Tabs)

def deadK (e : Gr) : Bool := haltG k.halt e == .dead || offG e
def nullK (e : Gr) : Bool := haltG k.halt e == .null

/-- `e` reads from the word what `f` does. -/
def simG : Nat → Gr → Gr → Bool
  | 0, f, e => f == e
  | n + 1, f, e => f == e || match e with
    | .wrap _ a => simG n f a
    | .call r => simG n f (cst r)
    | .alt a b => simG n f a || (deadK k a && simG n f b)
    | .seq a b => (match f with
        | .seq f1 f2 => f2 == b && simG n f1 a
        | _ => false) || (nullK k a && simG n f b)
    | _ => false

def fuel : Nat := 24

/-- `b` goes on reading what `c` reads. -/
def eats (c : Gr) : Gr → Bool
  | .many0 d => consK d && simG k fuel c d
  | _ => false

/-- May `e` end after the first of two words where it would go on without it, and what would then read what it reads. -/
def info : Gr → Bool × Gr
  | .raw x => (x == k.kind, .raw x)
  | .call r => (k.spl r, .call r)
  | .wrap _ a => info a
  | .seq a b =>
    if offG a then (false, .eps)
    else if (info a).1 && !eats k (info a).2 b then (true, .seq (info a).2 b) else info b
  | .alt a b => ((info a).1 || (info b).1, if (info a).1 then (info a).2 else (info b).2)
  | .many0 a => ((info a).1 && !eats k (info a).2 (.many0 a), .seq (info a).2 (.many0 a))
  | .many1 a => ((info a).1 && !eats k (info a).2 (.many0 a), .eps)
  | .opt a => info a
  | .not a => info a
  | .cut a => info a
  | .postCond _ a => info a
  | .mustConsume _ a => info a
  | e => (false, e)

/-- Fields that may be missing. -/
def fieldsG : Gr → Bool
  | .opt _ => true
  | .many0 _ => true
  | .seq a b => fieldsG a && fieldsG b
  | _ => false

/-- The condition, and what it is about, are as expected. -/
def postOk : PostCond → Gr → Bool
  | .anyFieldPresent, .wrap (.node _) a => fieldsG a
  | _, _ => false

def okG : Gr → Bool
  | .eps => true
  | .raw _ => true
  | .any _ => false
  | .call r => !hidden r
  | .wrap _ a => okG a
  | .seq a b => offG (.seq a b) || (okG a && okG b && (!(info k a).1 || eats k (info k a).2 b ||
      (nevK b && nullK k b && (!(info k b).1 || (info k b).2 == .seq (info k a).2 b))))
  | .alt a b => (okG a || offG a) && (okG b || offG b) && (!(info k a).1 || !(info k b).1 || (info k a).2 == (info k b).2)
  | .many0 a => okG a && (!(info k a).1 || eats k (info k a).2 (.many0 a) || (deadK k a && consK a))
  | .many1 a => okG a && (!(info k a).1 || eats k (info k a).2 (.many0 a))
  | .opt a => okG a && !(info k a).1
  | .not a => okG a && !(info k a).1
  | .cut a => okG a && !(info k a).1
  | .postCond c a => postOk c a && okG a && !(info k a).1
  | .mustConsume _ a => okG a && !(info k a).1
  | .manyTill _ _ => false

/-- What is to be checked of each production. -/
def checks (r : CRule) : Bool :=
  (offR r || hidden r || okG k (cst r)) && (!(info k (cst r)).1 || (k.spl r && simG k fuel (info k (cst r)).2 (cst r)))

/-! ### Every construct ends somehow -/

theorem total (e : Gr) : ∀ s, ∃ o, Peg cst e s o := by
  have many : ∀ a, (∀ s, ∃ o, Peg cst a s o) → ∀ n s, s.length = n → ∃ o, Peg cst (.many0 a) s o := by
    intro a ih n
    induction n using Nat.strongRecOn with
    | _ n ihn =>
      intro s hs
      obtain ⟨o, ho⟩ := ih s
      cases o with
      | error => exact ⟨_, .many0End ho⟩
      | failure => exact ⟨_, .many0Failure ho⟩
      | ok r vs =>
        by_cases hl : r.length = s.length
        · exact ⟨_, .many0Stuck ho hl⟩
        · have := congrArg List.length (ho.cuts _ _ rfl)
          simp at this
          obtain ⟨o2, h2⟩ := ihn r.length (by omega) r rfl
          cases o2 with
          | ok q ws => obtain ⟨us, rfl⟩ := peg_many0_ok h2; exact ⟨_, .many0More ho hl h2⟩
          | error => exact ⟨_, .many0Later ho hl h2 trivial⟩
          | failure => exact ⟨_, .many0Later ho hl h2 trivial⟩
  induction e with
  | eps => intro s; exact ⟨_, .eps⟩
  | raw x =>
    intro s
    cases s with
    | nil => exact ⟨_, .rawEnd⟩
    | cons t s =>
      by_cases h : t.selmaho = x
      · exact ⟨_, .raw h⟩
      · exact ⟨_, .rawOther h⟩
  | any x =>
    intro s
    cases s with
    | nil => exact ⟨_, .anyEnd⟩
    | cons t s => exact ⟨_, .any⟩
  | call r => exact peg_total r
  | seq a b iha ihb =>
    intro s
    obtain ⟨o, ho⟩ := iha s
    cases o with
    | error => exact ⟨_, .seqFirst ho trivial⟩
    | failure => exact ⟨_, .seqFirst ho trivial⟩
    | ok r vs =>
      obtain ⟨o, h2⟩ := ihb r
      cases o with
      | error => exact ⟨_, .seqSecond ho h2 trivial⟩
      | failure => exact ⟨_, .seqSecond ho h2 trivial⟩
      | ok q ws => exact ⟨_, .seq ho h2⟩
  | alt a b iha ihb =>
    intro s
    obtain ⟨o, ho⟩ := iha s
    obtain ⟨o2, h2⟩ := ihb s
    cases o with
    | error => exact ⟨_, .altSecond ho h2⟩
    | failure => exact ⟨_, .altFirst ho nofun⟩
    | ok r vs => exact ⟨_, .altFirst ho nofun⟩
  | opt a ih =>
    intro s
    obtain ⟨o, ho⟩ := ih s
    cases o with
    | error => exact ⟨_, .optAbsent ho⟩
    | failure => exact ⟨_, .optFailure ho⟩
    | ok r vs => exact ⟨_, .optPresent ho⟩
  | many0 a ih => intro s; exact many a ih _ s rfl
  | many1 a ih =>
    intro s
    obtain ⟨o, ho⟩ := ih s
    cases o with
    | error => exact ⟨_, .many1First ho trivial⟩
    | failure => exact ⟨_, .many1First ho trivial⟩
    | ok r vs =>
      obtain ⟨o2, h2⟩ := many a ih _ r rfl
      cases o2 with
      | ok q ws => obtain ⟨us, rfl⟩ := peg_many0_ok h2; exact ⟨_, .many1 ho h2⟩
      | error => exact ⟨_, .many1Later ho h2 trivial⟩
      | failure => exact ⟨_, .many1Later ho h2 trivial⟩
  | manyTill a b iha ihb =>
    have ok : ∀ {s q vs}, Peg cst (.manyTill a b) s (.ok q vs) → ∃ us ws, vs = .many us :: ws := by
      intro s q vs h
      cases h with
      | tillEnd => exact ⟨_, _, rfl⟩
      | tillMore => exact ⟨_, _, rfl⟩
      | tillItem _ _ hb => exact hb.elim
      | tillLater _ _ _ _ hb => exact hb.elim
    have : ∀ n s, s.length = n → ∃ o, Peg cst (.manyTill a b) s o := by
      intro n
      induction n using Nat.strongRecOn with
      | _ n ihn =>
        intro s hs
        obtain ⟨ob, hob⟩ := ihb s
        cases ob with
        | ok r ws => exact ⟨_, .tillEnd hob⟩
        | failure => exact ⟨_, .tillFailure hob⟩
        | error =>
          obtain ⟨o, ho⟩ := iha s
          cases o with
          | error => exact ⟨_, .tillItem hob ho trivial⟩
          | failure => exact ⟨_, .tillItem hob ho trivial⟩
          | ok r vs =>
            by_cases hl : r.length = s.length
            · exact ⟨_, .tillStuck hob ho hl⟩
            · have := congrArg List.length (ho.cuts _ _ rfl)
              simp at this
              obtain ⟨o2, h2⟩ := ihn r.length (by omega) r rfl
              cases o2 with
              | ok q ws => obtain ⟨us, ws, rfl⟩ := ok h2; exact ⟨_, .tillMore hob ho hl h2⟩
              | error => exact ⟨_, .tillLater hob ho hl h2 trivial⟩
              | failure => exact ⟨_, .tillLater hob ho hl h2 trivial⟩
    intro s; exact this _ s rfl
  | not a ih =>
    intro s
    obtain ⟨o, ho⟩ := ih s
    cases o with
    | error => exact ⟨_, .not ho⟩
    | failure => exact ⟨_, .notFailure ho⟩
    | ok r vs => exact ⟨_, .notThere ho⟩
  | cut a ih =>
    intro s
    obtain ⟨o, ho⟩ := ih s
    cases o with
    | error => exact ⟨_, .cutError ho⟩
    | failure => exact ⟨_, .cut ho nofun⟩
    | ok r vs => exact ⟨_, .cut ho nofun⟩
  | mustConsume n a ih =>
    intro s
    obtain ⟨o, ho⟩ := ih s
    cases o with
    | error => exact ⟨_, .mustBad ho trivial⟩
    | failure => exact ⟨_, .mustBad ho trivial⟩
    | ok r vs =>
      by_cases hl : r.length = s.length
      · exact ⟨_, .mustEmpty ho hl⟩
      · exact ⟨_, .must ho hl⟩
  | postCond c a ih =>
    intro s
    obtain ⟨o, ho⟩ := ih s
    cases o with
    | error => exact ⟨_, .postBad ho trivial⟩
    | failure => exact ⟨_, .postBad ho trivial⟩
    | ok r vs =>
      cases hc : c.holds vs with
      | true => exact ⟨_, .post ho hc⟩
      | false => exact ⟨_, .postViolated ho hc⟩
  | wrap sh a ih =>
    intro s
    obtain ⟨o, ho⟩ := ih s
    cases o with
    | error => exact ⟨_, .wrapBad ho trivial⟩
    | failure => exact ⟨_, .wrapBad ho trivial⟩
    | ok r vs => exact ⟨_, .wrap ho⟩

/-! ### What never applies, what reads something -/

theorem Clean.sub {s s' : List Token} (h : Clean s) (hs : ∀ t ∈ s', t ∈ s) : Clean s' := fun t ht => h t (hs t ht)

theorem Clean.rest {e : Gr} {s r : List Token} {vs : List Val} (h : Clean s) (hp : Peg cst e s (.ok r vs)) : Clean r :=
  h.sub (fun t ht => by rw [hp.cuts _ _ rfl]; simp [ht])

theorem mildR_ok (r : CRule) (h : mildR r = true) : mildG mildR (cst r) = true := by
  revert h
  cases r with
  | word s => cases s <;> decide +kernel
  | _ => decide +kernel

/-- Never succeeds on a text without quotes. -/
def deadO : Gr → Bool
  | .call r => offR r
  | .raw x => outs.contains x
  | .seq a b => deadO a || deadO b
  | .alt a b => deadO a && deadO b
  | .many1 a => deadO a
  | .mustConsume _ a => deadO a
  | .cut a => deadO a
  | .postCond _ a => deadO a
  | .wrap _ a => deadO a
  | _ => false

theorem offR_dead (r : CRule) (h : offR r = true) : deadO (cst r) = true := by
  revert h
  cases r with
  | word s => cases s <;> decide +kernel
  | _ => decide +kernel

theorem dead_bad {e : Gr} {s : List Token} {o : Outcome} (h : Peg cst e s o) : Clean s → deadO e = true → o.Bad := by
  induction h with
  | raw hx => intro hs hd; exact absurd (by simpa [deadO, ← hx] using hd) (hs _ (by simp))
  | call _ ih => intro hs hd; exact ih hs (offR_dead _ hd)
  | seq h1 _ ih1 ih2 =>
    intro hs hd
    simp only [deadO, Bool.or_eq_true] at hd
    rcases hd with hd | hd
    · exact (ih1 hs hd).elim
    · exact (ih2 (hs.rest h1) hd).elim
  | _ => grind [deadO, Outcome.Bad]

theorem offR_ok (r : CRule) (h : offR r = true) : (∃ x, r = .word x) ∨ offG (cst r) = true := by
  revert h
  cases r with
  | word s => intro _; exact .inl ⟨_, rfl⟩
  | _ => intro h; first | (cases h; done) | exact .inr (by decide +kernel)

theorem off_error {e : Gr} {s : List Token} {o : Outcome} (h : Peg cst e s o) : Clean s → offG e = true → o = .error := by
  induction h with
  | @call r s o hp ih =>
    intro hs ho
    rcases offR_ok r ho with ⟨x, rfl⟩ | h
    · have h1 := dead_bad (.call hp) hs ho
      cases o with
      | ok => exact h1.elim
      | error => rfl
      | failure => exact absurd rfl (word_mild (.call hp))
    · exact ih hs h
  | seq h1 h2 ih1 ih2 =>
    intro hs ho
    simp only [offG, Bool.or_eq_true, Bool.and_eq_true] at ho
    rcases ho with ho | ho
    · cases ih1 hs ho
    · cases ih2 (hs.rest h1) ho.2
  | @seqFirst a b s o h1 hb ih1 =>
    intro hs ho
    simp only [offG, Bool.or_eq_true, Bool.and_eq_true] at ho
    rcases ho with ho | ho
    · exact ih1 hs ho
    · have := peg_mild mildR_ok h1 ho.1
      cases o with
      | ok => exact hb.elim
      | error => rfl
      | failure => exact absurd rfl this
  | seqSecond h1 h2 hb ih1 ih2 =>
    intro hs ho
    simp only [offG, Bool.or_eq_true, Bool.and_eq_true] at ho
    rcases ho with ho | ho
    · cases ih1 hs ho
    · exact ih2 (hs.rest h1) ho.2
  | _ => grind [offG, Outcome.Bad]

theorem cons_shorter {e : Gr} {s : List Token} {o : Outcome} (h : Peg cst e s o) : ∀ r vs, o = .ok r vs → consK e = true → r.length < s.length := by
  have le : ∀ {e s r vs}, Peg cst e s (.ok r vs) → r.length ≤ s.length := by
    intro e s r vs h
    have := congrArg List.length (h.cuts _ _ rfl)
    simp at this; omega
  induction h with
  | call h ih => rintro r vs rfl hc; exact gives_shorter hc ⟨_, .call h⟩
  | seq h1 h2 ih1 ih2 =>
    rintro r vs he hc; cases he
    have l1 := le h1
    have l2 := le h2
    simp only [consK, Bool.or_eq_true] at hc
    rcases hc with hc | hc
    · have := ih1 _ _ rfl hc; omega
    · have := ih2 _ _ rfl hc; omega
  | many1 h1 h2 ih1 ih2 =>
    rintro r vs he hc; cases he
    have l2 := le h2
    have := ih1 _ _ rfl hc; omega
  | must h1 hl ih =>
    rintro r vs he hc; cases he
    have := le h1
    omega
  | _ => grind [consK, Outcome.Bad]

theorem many0_never {a : Gr} (hc : consK a = true) {s : List Token} {o : Outcome} (h : Peg cst (.many0 a) s o) : o ≠ .error := by
  generalize he : Gr.many0 a = e at h
  induction h with
  | many0Stuck h1 hl =>
    cases he
    have := cons_shorter h1 _ _ rfl hc
    omega
  | many0Later h1 hl h2 hb ih1 ih2 => cases he; exact ih2 rfl
  | _ => first | (cases he; done) | nofun

theorem nev_never {e : Gr} : ∀ {s : List Token} {o : Outcome}, Peg cst e s o → Clean s → nevK e = true → o ≠ .error := by
  induction e with
  | eps => intro s o h _ _; cases h; nofun
  | call r => intro s o h _ hn; exact peg_never hn h
  | seq a b iha ihb =>
    intro s o h hs hn
    simp only [nevK, Bool.and_eq_true] at hn
    cases h with
    | seq h1 h2 => nofun
    | seqFirst h1 hb => exact iha h1 hs hn.1
    | seqSecond h1 h2 hb => exact ihb h2 (hs.rest h1) hn.2
  | opt a ih => intro s o h _ _; cases h <;> nofun
  | many0 a ih => intro s o h _ hn; exact many0_never hn h
  | not a ih =>
    intro s o h hs hn
    cases h with
    | not h => nofun
    | notThere h => cases off_error h hs hn
    | notFailure h => nofun
  | wrap sh a ih =>
    intro s o h hs hn
    cases h with
    | wrap h => nofun
    | wrapBad h hb => exact ih h hs hn
  | _ => intro s o _ _ hn; cases hn

/-! ### Reading, without the values -/

/-- How reading ended, without the values. -/
def rest : Outcome → Option (Option (List Token))
  | .ok r _ => some (some r)
  | .error => none
  | .failure => some none

/-- Reading `e` ends like that. -/
def Rd (e : Gr) (s : List Token) (o : Outcome) : Prop := ∃ o', Peg cst e s o' ∧ rest o' = rest o

theorem rest_ok {o : Outcome} {r : List Token} {vs : List Val} (h : rest o = rest (.ok r vs)) : ∃ ws, o = .ok r ws := by
  cases o <;> simp [rest] at h
  subst h; exact ⟨_, rfl⟩

theorem rest_error {o : Outcome} (h : rest o = rest .error) : o = .error := by
  cases o <;> simp [rest] at h
  rfl

theorem rest_failure {o : Outcome} (h : rest o = rest .failure) : o = .failure := by
  cases o <;> simp [rest] at h
  rfl

/-- The tables are right, for the words `x` and `b` before `B`. -/
structure Cert (k : Tabs) (x b : Token) (B : List Token) : Prop where
  isX : x.selmaho = k.kind
  isB : b.selmaho = k.kind
  clean : Clean (b :: B)
  isHalt : ∀ e o, Peg cst e (b :: B) o → (haltG k.halt e).Says (b :: B) o
  isOk : ∀ r, checks k r = true

variable {k : Tabs} {x b : Token} {B : List Token}

theorem isDead (hk : Cert k x b B) {e : Gr} (h : deadK k e = true) : Peg cst e (b :: B) .error := by
  obtain ⟨o, ho⟩ := total e (b :: B)
  simp only [deadK, Bool.or_eq_true, beq_iff_eq] at h
  rcases h with h | h
  · have := hk.isHalt e o ho
    rw [h] at this
    cases this; exact ho
  · have := off_error ho hk.clean h
    cases this; exact ho

theorem isNull (hk : Cert k x b B) {e : Gr} (h : nullK k e = true) : ∃ vs, Peg cst e (b :: B) (.ok (b :: B) vs) := by
  obtain ⟨o, ho⟩ := total e (b :: B)
  simp only [nullK, beq_iff_eq] at h
  have := hk.isHalt e o ho
  rw [h] at this
  obtain ⟨vs, rfl⟩ := this
  exact ⟨vs, ho⟩

theorem sim_ok (hk : Cert k x b B) : ∀ n f e, simG k n f e = true → ∀ o, o ≠ .error → Rd f (b :: B) o → Rd e (b :: B) o := by
  intro n
  induction n with
  | zero => intro f e h o _ hr; simp only [simG, beq_iff_eq] at h; subst h; exact hr
  | succ n ih =>
    intro f e h o hne hr
    simp only [simG, Bool.or_eq_true, beq_iff_eq] at h
    rcases h with h | h
    · subst h; exact hr
    cases e <;> simp only [Bool.false_eq_true] at h
    case wrap sh a =>
      obtain ⟨o', h1, h2⟩ := ih f a h o hne hr
      cases o' with
      | ok r vs => exact ⟨_, .wrap h1, h2⟩
      | error => exact ⟨_, .wrapBad h1 trivial, h2⟩
      | failure => exact ⟨_, .wrapBad h1 trivial, h2⟩
    case call r =>
      obtain ⟨o', h1, h2⟩ := ih f _ h o hne hr
      exact ⟨_, .call h1, h2⟩
    case alt a c =>
      simp only [Bool.or_eq_true, Bool.and_eq_true] at h
      rcases h with h | ⟨hd, h⟩
      · obtain ⟨o', h1, h2⟩ := ih f a h o hne hr
        exact ⟨_, .altFirst h1 (by rintro rfl; exact hne (rest_error h2.symm)), h2⟩
      · obtain ⟨o', h1, h2⟩ := ih f c h o hne hr
        exact ⟨_, .altSecond (isDead hk hd) h1, h2⟩
    case seq a c =>
      simp only [Bool.or_eq_true, Bool.and_eq_true] at h
      rcases h with h | ⟨hd, h⟩
      · cases f <;> simp only [Bool.false_eq_true] at h
        case seq f1 f2 =>
          simp only [Bool.and_eq_true, beq_iff_eq] at h
          obtain ⟨rfl, h⟩ := h
          obtain ⟨o', h1, h2⟩ := hr
          obtain ⟨of, hf, hor⟩ := pegSeq h1
          have hfe : of ≠ .error := by
            rintro rfl
            rcases hor with ⟨_, rfl⟩ | ⟨_, _, h, _⟩
            · exact hne (rest_error h2.symm)
            · cases h
          obtain ⟨oa, ha, hra⟩ := ih f1 a h of hfe ⟨of, hf, rfl⟩
          rcases hor with ⟨hb, rfl⟩ | ⟨r, vs, rfl, ob, hob, hor⟩
          · cases o' with
            | ok => exact hb.elim
            | error => exact absurd rfl hfe
            | failure => cases rest_failure hra; exact ⟨_, .seqFirst ha trivial, h2⟩
          · obtain ⟨ws, rfl⟩ := rest_ok hra
            rcases hor with ⟨hb, rfl⟩ | ⟨q, us, rfl, rfl⟩
            · exact ⟨_, .seqSecond ha hob hb, h2⟩
            · exact ⟨_, .seq ha hob, h2⟩
      · obtain ⟨o', h1, h2⟩ := ih f c h o hne hr
        obtain ⟨vs, hn⟩ := isNull hk hd
        cases o' with
        | ok r ws => exact ⟨_, .seq hn h1, h2⟩
        | error => exact ⟨_, .seqSecond hn h1 trivial, h2⟩
        | failure => exact ⟨_, .seqSecond hn h1 trivial, h2⟩

/-! ### The fields of a node -/

theorem fields_many {a : Gr} (hf : fieldsG a = true) : ∀ {s r : List Token} {vs : List Val}, Peg cst a s (.ok r vs) → ∀ v ∈ vs, ∃ us, v = .many us := by
  induction a with
  | opt a => intro s r vs h v hv; cases h <;> exact ⟨_, by simpa using hv⟩
  | many0 a => intro s r vs h v hv; obtain ⟨us, rfl⟩ := peg_many0_ok h; exact ⟨_, by simpa using hv⟩
  | seq a c iha ihc =>
    intro s r vs h v hv
    simp only [fieldsG, Bool.and_eq_true] at hf
    obtain ⟨q, us, ws, h1, h2, rfl⟩ := peg_seq_ok h
    rcases List.mem_append.mp hv with hv | hv
    · exact iha hf.1 h1 v hv
    · exact ihc hf.2 h2 v hv
  | _ => cases hf

theorem some_present {vs : List Val} (hv : ∀ v ∈ vs, ∃ us, v = .many us) (ht : tokensL vs ≠ []) : vs.any Val.present = true := by
  induction vs with
  | nil => exact absurd rfl ht
  | cons v vs ih =>
    obtain ⟨us, rfl⟩ := hv v (by simp)
    cases us with
    | cons => simp [Val.present]
    | nil =>
      simp only [List.any_cons, Bool.or_eq_true]
      exact .inr (ih (fun v h => hv v (by simp [h])) (by simpa [tokensL, tokens] using ht))

theorem post_holds {c : PostCond} {a : Gr} (hp : postOk c a = true) {s r : List Token} {vs : List Val} (h : Peg cst a s (.ok r vs))
    (hl : r.length ≠ s.length) : c.holds vs = true := by
  unfold postOk at hp
  split at hp
  · obtain ⟨us, h1, rfl⟩ := peg_wrap_ok h
    have ht : tokensL us ≠ [] := by
      intro ht
      have := h1.cuts _ _ rfl
      rw [ht] at this
      exact hl (by simp [this])
    exact some_present (fields_many hp h1) ht
  · cases hp

/-! ### The correspondence -/

/-- How the outcomes without and with the additional word correspond. -/
inductive Rel (k : Tabs) (x b : Token) (B : List Token) (e : Gr) : Outcome → Outcome → Prop
  | error : Rel k x b B e .error .error
  | failure : Rel k x b B e .failure .failure
  | before {u vs} : Rel k x b B e (.ok (u ++ b :: B) vs) (.ok (u ++ x :: b :: B) vs)
  | past {r vs vs'} : r.length ≤ B.length → Rel k x b B e (.ok r vs) (.ok r vs')
  | split {o vs'} : (info k e).1 = true → o ≠ .error → Rd (info k e).2 (b :: B) o → Rel k x b B e o (.ok (b :: B) vs')

/-- The claim about one construct. -/
def Claim (k : Tabs) (x b : Token) (B : List Token) (e : Gr) (l : List Token) (o : Outcome) : Prop :=
  ∀ u, l = u ++ b :: B → Clean (u ++ x :: b :: B) → okG k e = true → ∀ o', Peg cst e (u ++ x :: b :: B) o' → Rel k x b B e o o'

/-- The same where nothing but the form is needed. -/
theorem Rel.mono {e e' : Gr} {o o' : Outcome} (h : Rel k x b B e o o') (h1 : (info k e).1 = true → (info k e').1 = true ∧ (info k e').2 = (info k e).2) :
    Rel k x b B e' o o' := by
  cases h with
  | error => exact .error
  | failure => exact .failure
  | before => exact .before
  | past h => exact .past h
  | split hi hn hr => exact .split (h1 hi).1 hn (by rw [(h1 hi).2]; exact hr)

theorem Rel.bad {e' : Gr} {o : Outcome} (hb : o.Bad) : Rel k x b B e' o o := by
  cases o with
  | ok => exact hb.elim
  | error => exact .error
  | failure => exact .failure

theorem shorter {e : Gr} {s r : List Token} {vs : List Val} (h : Peg cst e s (.ok r vs)) : r.length ≤ s.length := by
  have := congrArg List.length (h.cuts _ _ rfl)
  simp at this; omega

/-- Reading the rest of the repetition at the second word. -/
theorem eats_many {c d : Gr} (hk : Cert k x b B) (he : eats k c (.many0 d) = true) {oa o o' : Outcome} (hne : oa ≠ .error) (hr : Rd c (b :: B) oa)
    (h : (oa = .failure ∧ o = .failure) ∨ ∃ r vs, oa = .ok r vs ∧ ∃ o1, Peg cst (.many0 d) r o1 ∧ rest o = rest o1)
    (h' : Peg cst (.many0 d) (b :: B) o') : (o.Bad ∧ o' = o) ∨ ∃ r vs vs', o = .ok r vs ∧ o' = .ok r vs' ∧ r.length ≤ B.length := by
  simp only [eats, Bool.and_eq_true] at he
  obtain ⟨hc, hs⟩ := he
  obtain ⟨od, hd, hrd⟩ := sim_ok hk _ _ _ hs oa hne hr
  rcases h with ⟨rfl, rfl⟩ | ⟨r, vs, rfl, o1, h1, h2⟩
  · cases rest_failure hrd
    exact .inl ⟨trivial, h'.unique _ (.many0Failure hd)⟩
  · obtain ⟨ws, rfl⟩ := rest_ok hrd
    have hl := cons_shorter hd _ _ rfl hc
    simp only [List.length_cons] at hl
    have hl' : r.length ≠ (b :: B).length := by simp; omega
    cases o1 with
    | ok q vs1 =>
      obtain ⟨us, rfl⟩ := peg_many0_ok h1
      obtain ⟨vs2, rfl⟩ := rest_ok h2
      have := h'.unique _ (.many0More hd hl' h1)
      subst this
      have := shorter h1
      exact .inr ⟨_, _, _, rfl, rfl, by omega⟩
    | error =>
      cases rest_error h2
      exact .inl ⟨trivial, h'.unique _ (.many0Later hd hl' h1 trivial)⟩
    | failure =>
      cases rest_failure h2
      exact .inl ⟨trivial, h'.unique _ (.many0Later hd hl' h1 trivial)⟩

theorem claim_seq (hk : Cert k x b B) {a c : Gr} {l : List Token} {oa o : Outcome} (ha : Peg cst a l oa) (ia : Claim k x b B a l oa)
    (hab : (oa.Bad ∧ o = oa) ∨ ∃ r vs, oa = .ok r vs ∧ ∃ ob, Peg cst c r ob ∧ Claim k x b B c r ob ∧
      ((ob.Bad ∧ o = ob) ∨ ∃ q ws, ob = .ok q ws ∧ o = .ok q (vs ++ ws))) : Claim k x b B (.seq a c) l o := by
  rintro u rfl hP hok o' ho'
  have hO : Clean (u ++ b :: B) := hP.sub (by intro t ht; simp at ht ⊢; rcases ht with h | h | h <;> simp [h])
  simp only [okG, Bool.or_eq_true (offG _)] at hok
  rcases hok with hoff | hok
  · have h1 := off_error ho' hP hoff
    have h2 : Peg cst (.seq a c) (u ++ b :: B) o := by
      rcases hab with ⟨hb, rfl⟩ | ⟨r, vs, rfl, ob, hc, _, ⟨hb, rfl⟩ | ⟨q, ws, rfl, rfl⟩⟩
      · exact .seqFirst ha hb
      · exact .seqSecond ha hc hb
      · exact .seq ha hc
    have h2 := off_error h2 hO hoff
    subst h1 h2
    exact .error
  simp only [Bool.and_eq_true, Bool.or_eq_true, Bool.not_eq_true', beq_iff_eq] at hok
  obtain ⟨⟨hoka, hokc⟩, hor⟩ := hok
  obtain ⟨oa', ha', hab'⟩ := pegSeq ho'
  have hna : ∀ r vs, oa = .ok r vs → offG a = false := by
    rintro r vs rfl
    cases h : offG a with
    | false => rfl
    | true => cases off_error ha hO h
  have ra := ia u rfl hP hoka oa' ha'
  have bad : oa.Bad → oa' = oa → Rel k x b B (.seq a c) o o' := by
    rintro hb rfl
    rcases hab with ⟨_, rfl⟩ | ⟨_, _, rfl, _⟩
    · rcases hab' with ⟨_, rfl⟩ | ⟨_, _, rfl, _⟩
      · exact Rel.bad hb
      · exact hb.elim
    · exact hb.elim
  cases ra with
  | error => exact bad trivial rfl
  | failure => exact bad trivial rfl
  | @before u' vs =>
    rcases hab with ⟨hb, _⟩ | ⟨_, _, h, ob, hc, ic, hh⟩
    · exact hb.elim
    cases h
    rcases hab' with ⟨hb, _⟩ | ⟨_, _, h, ob', hc', hh'⟩
    · exact hb.elim
    cases h
    have rc := ic u' rfl (hP.rest ha') hokc ob' hc'
    have hi : (info k c).1 = true → (info k (.seq a c)).1 = true ∧ (info k (.seq a c)).2 = (info k c).2 := by
      intro hi
      simp only [info, hna _ _ rfl, Bool.false_eq_true, if_false]
      split
      · rename_i h
        simp only [Bool.and_eq_true, Bool.not_eq_true'] at h
        rcases hor with (h' | h') | ⟨_, h' | h'⟩
        · rw [h.1] at h'; cases h'
        · rw [h.2] at h'; cases h'
        · rw [hi] at h'; cases h'
        · exact ⟨rfl, h'.symm⟩
      · exact ⟨hi, rfl⟩
    cases rc with
    | error =>
      rcases hh with ⟨_, rfl⟩ | ⟨_, _, h, _⟩
      · rcases hh' with ⟨_, rfl⟩ | ⟨_, _, h, _⟩
        · exact .error
        · cases h
      · cases h
    | failure =>
      rcases hh with ⟨_, rfl⟩ | ⟨_, _, h, _⟩
      · rcases hh' with ⟨_, rfl⟩ | ⟨_, _, h, _⟩
        · exact .failure
        · cases h
      · cases h
    | before =>
      rcases hh with ⟨hb, _⟩ | ⟨_, _, h, rfl⟩
      · exact hb.elim
      cases h
      rcases hh' with ⟨hb, _⟩ | ⟨_, _, h, rfl⟩
      · exact hb.elim
      cases h
      exact .before
    | past hl =>
      rcases hh with ⟨hb, _⟩ | ⟨_, _, h, rfl⟩
      · exact hb.elim
      cases h
      rcases hh' with ⟨hb, _⟩ | ⟨_, _, h, rfl⟩
      · exact hb.elim
      cases h
      exact .past hl
    | split h1 hn hr =>
      rcases hh' with ⟨hb, _⟩ | ⟨_, _, h, rfl⟩
      · exact hb.elim
      cases h
      rcases hh with ⟨hb, rfl⟩ | ⟨_, _, rfl, rfl⟩
      · exact .split (hi h1).1 hn (by rw [(hi h1).2]; exact hr)
      · obtain ⟨o2, h3, h4⟩ := hr
        exact .split (hi h1).1 nofun (by rw [(hi h1).2]; exact ⟨o2, h3, h4⟩)
  | past hl =>
    rcases hab with ⟨hb, _⟩ | ⟨_, _, h, ob, hc, ic, hh⟩
    · exact hb.elim
    cases h
    rcases hab' with ⟨hb, _⟩ | ⟨_, _, h, ob', hc', hh'⟩
    · exact hb.elim
    cases h
    have := hc.unique _ hc'
    subst this
    rcases hh with ⟨hb, rfl⟩ | ⟨_, _, rfl, rfl⟩
    · rcases hh' with ⟨_, rfl⟩ | ⟨_, _, rfl, _⟩
      · exact Rel.bad hb
      · exact hb.elim
    · rcases hh' with ⟨hb, _⟩ | ⟨_, _, h, rfl⟩
      · exact hb.elim
      cases h
      have := shorter hc
      exact .past (by omega)
  | split h1 hn hr =>
    rcases hab' with ⟨hb, _⟩ | ⟨_, _, h, ob', hc', hh'⟩
    · exact hb.elim
    cases h
    have hnoff : offG a = false := by
      cases h : offG a with
      | false => rfl
      | true => exact absurd (off_error ha hO h) hn
    by_cases heat : eats k (info k a).2 c = true
    · cases c with
      | many0 d =>
        have key : (oa = .failure ∧ o = .failure) ∨ ∃ r vs, oa = .ok r vs ∧ ∃ o1, Peg cst (.many0 d) r o1 ∧ rest o = rest o1 := by
          rcases hab with ⟨hb, rfl⟩ | ⟨r, vs, rfl, ob, hc, ic, hh⟩
          · cases o with
            | ok => exact hb.elim
            | error => exact absurd rfl hn
            | failure => exact .inl ⟨rfl, rfl⟩
          · refine .inr ⟨_, _, rfl, ob, hc, ?_⟩
            rcases hh with ⟨_, rfl⟩ | ⟨_, _, rfl, rfl⟩ <;> rfl
        rcases eats_many hk heat hn hr key hc' with ⟨hb, rfl⟩ | ⟨r, vs, vs', rfl, rfl, hl⟩
        · rcases hh' with ⟨_, rfl⟩ | ⟨_, _, rfl, _⟩
          · exact Rel.bad hb
          · exact hb.elim
        · rcases hh' with ⟨hb, _⟩ | ⟨_, _, h, rfl⟩
          · exact hb.elim
          cases h
          exact .past hl
      | _ => cases heat
    · have h3 : nevK c = true ∧ nullK k c = true := by
        rcases hor with (h' | h') | ⟨h', _⟩
        · rw [h1] at h'; cases h'
        · exact absurd h' heat
        · exact h'
      obtain ⟨vs, hnull⟩ := isNull hk h3.2
      cases hc'.unique _ hnull
      rcases hh' with ⟨hb, _⟩ | ⟨_, _, h, rfl⟩
      · exact hb.elim
      cases h
      have hi : info k (.seq a c) = (true, .seq (info k a).2 c) := by
        simp [info, hnoff, h1, heat]
      obtain ⟨of, hf, hrf⟩ := hr
      rcases hab with ⟨hb, rfl⟩ | ⟨r, ws, rfl, ob, hc, ic, hh⟩
      · cases o with
        | ok => exact hb.elim
        | error => exact absurd rfl hn
        | failure =>
          cases rest_failure hrf
          exact .split (by rw [hi]) nofun (by rw [hi]; exact ⟨_, .seqFirst hf trivial, rfl⟩)
      · obtain ⟨us, rfl⟩ := rest_ok hrf
        have hne := nev_never hc (hO.rest ha) h3.1
        rcases hh with ⟨hb, rfl⟩ | ⟨_, _, rfl, rfl⟩
        · exact .split (by rw [hi]) hne (by rw [hi]; exact ⟨_, .seqSecond hf hc hb, rfl⟩)
        · exact .split (by rw [hi]) nofun (by rw [hi]; exact ⟨_, .seq hf hc, rfl⟩)


theorem pegMany0 {a : Gr} {s : List Token} {o : Outcome} (h : Peg cst (.many0 a) s o) :
    ∃ oa, Peg cst a s oa ∧ ((oa = .error ∧ o = .ok s [.many []]) ∨ (oa = .failure ∧ o = .failure) ∨ ∃ r vs, oa = .ok r vs ∧
      ((r.length = s.length ∧ o = .error) ∨ (r.length ≠ s.length ∧ ∃ o1, Peg cst (.many0 a) r o1 ∧
        ((o1.Bad ∧ o = o1) ∨ ∃ q ws, o1 = .ok q [.many ws] ∧ o = .ok q [.many (vs ++ ws)])))) := by
  cases h with
  | many0End h => exact ⟨_, h, .inl ⟨rfl, rfl⟩⟩
  | many0Failure h => exact ⟨_, h, .inr (.inl ⟨rfl, rfl⟩)⟩
  | many0Stuck h hl => exact ⟨_, h, .inr (.inr ⟨_, _, rfl, .inl ⟨hl, rfl⟩⟩)⟩
  | many0More h hl h2 => exact ⟨_, h, .inr (.inr ⟨_, _, rfl, .inr ⟨hl, _, h2, .inr ⟨_, _, rfl, rfl⟩⟩⟩)⟩
  | many0Later h hl h2 hb => exact ⟨_, h, .inr (.inr ⟨_, _, rfl, .inr ⟨hl, _, h2, .inl ⟨hb, rfl⟩⟩⟩)⟩

theorem claim_many0 (hk : Cert k x b B) {a : Gr} {l : List Token} {oa o : Outcome} (ha : Peg cst a l oa) (ia : Claim k x b B a l oa)
    (hab : (oa = .error ∧ o = .ok l [.many []]) ∨ (oa = .failure ∧ o = .failure) ∨ ∃ r vs, oa = .ok r vs ∧
      ((r.length = l.length ∧ o = .error) ∨ (r.length ≠ l.length ∧ ∃ o1, Peg cst (.many0 a) r o1 ∧ Claim k x b B (.many0 a) r o1 ∧
        ((o1.Bad ∧ o = o1) ∨ ∃ q ws, o1 = .ok q [.many ws] ∧ o = .ok q [.many (vs ++ ws)])))) : Claim k x b B (.many0 a) l o := by
  rintro u rfl hP hok o' ho'
  have hok0 := hok
  simp only [okG, Bool.and_eq_true, Bool.or_eq_true, Bool.not_eq_true'] at hok
  obtain ⟨hoka, hor⟩ := hok
  obtain ⟨oa', ha', hab'⟩ := pegMany0 ho'
  have ra := ia u rfl hP hoka oa' ha'
  cases ra with
  | error =>
    rcases hab with ⟨_, rfl⟩ | ⟨h, _⟩ | ⟨_, _, h, _⟩
    · rcases hab' with ⟨_, rfl⟩ | ⟨h, _⟩ | ⟨_, _, h, _⟩
      · exact .before
      · cases h
      · cases h
    · cases h
    · cases h
  | failure =>
    rcases hab with ⟨h, _⟩ | ⟨_, rfl⟩ | ⟨_, _, h, _⟩
    · cases h
    · rcases hab' with ⟨h, _⟩ | ⟨_, rfl⟩ | ⟨_, _, h, _⟩
      · cases h
      · exact .failure
      · cases h
    · cases h
  | @before u' vs =>
    rcases hab with ⟨h, _⟩ | ⟨h, _⟩ | ⟨_, _, h, hab⟩
    · cases h
    · cases h
    cases h
    rcases hab' with ⟨h, _⟩ | ⟨h, _⟩ | ⟨_, _, h, hab'⟩
    · cases h
    · cases h
    cases h
    simp only [List.length_append, List.length_cons] at hab hab'
    rcases hab with ⟨hl, rfl⟩ | ⟨hl, o1, h1, i1, hh⟩
    · rcases hab' with ⟨_, rfl⟩ | ⟨hl', _⟩
      · exact .error
      · omega
    · rcases hab' with ⟨hl', _⟩ | ⟨hl', o1', h1', hh'⟩
      · omega
      have r1 := i1 u' rfl (hP.rest ha') hok0 o1' h1'
      generalize hg : o1' = o2 at r1
      cases r1 with
      | error =>
        subst hg
        rcases hh with ⟨_, rfl⟩ | ⟨_, _, h, _⟩
        · rcases hh' with ⟨_, rfl⟩ | ⟨_, _, h, _⟩
          · exact .error
          · cases h
        · cases h
      | failure =>
        subst hg
        rcases hh with ⟨_, rfl⟩ | ⟨_, _, h, _⟩
        · rcases hh' with ⟨_, rfl⟩ | ⟨_, _, h, _⟩
          · exact .failure
          · cases h
        · cases h
      | before =>
        subst hg
        rcases hh with ⟨hb, _⟩ | ⟨_, _, h, rfl⟩
        · exact hb.elim
        cases h
        rcases hh' with ⟨hb, _⟩ | ⟨_, _, h, rfl⟩
        · exact hb.elim
        cases h
        exact .before
      | past hl =>
        subst hg
        rcases hh with ⟨hb, _⟩ | ⟨_, _, h, rfl⟩
        · exact hb.elim
        cases h
        rcases hh' with ⟨hb, _⟩ | ⟨_, _, h, rfl⟩
        · exact hb.elim
        cases h
        exact .past hl
      | split hi hn hr =>
        subst hg
        rcases hh' with ⟨hb, _⟩ | ⟨_, _, h, rfl⟩
        · exact hb.elim
        cases h
        rcases hh with ⟨hb, rfl⟩ | ⟨_, _, rfl, rfl⟩
        · exact .split hi hn hr
        · obtain ⟨o2, h3, h4⟩ := hr
          exact .split hi nofun ⟨o2, h3, h4⟩
  | @past r vs vs' hl =>
    rcases hab with ⟨h, _⟩ | ⟨h, _⟩ | ⟨_, _, h, hab⟩
    · cases h
    · cases h
    cases h
    rcases hab' with ⟨h, _⟩ | ⟨h, _⟩ | ⟨_, _, h, hab'⟩
    · cases h
    · cases h
    cases h
    simp only [List.length_append, List.length_cons] at hab hab'
    rcases hab with ⟨hl', _⟩ | ⟨_, o1, h1, i1, hh⟩
    · omega
    rcases hab' with ⟨hl', _⟩ | ⟨_, o1', h1', hh'⟩
    · omega
    have := h1.unique _ h1'
    subst this
    rcases hh with ⟨hb, rfl⟩ | ⟨_, _, rfl, rfl⟩
    · rcases hh' with ⟨_, rfl⟩ | ⟨_, _, rfl, _⟩
      · exact Rel.bad hb
      · exact hb.elim
    · rcases hh' with ⟨hb, _⟩ | ⟨_, _, h, rfl⟩
      · exact hb.elim
      cases h
      have := shorter h1
      exact .past (by omega)
  | split h1 hn hr =>
    rcases hab' with ⟨h, _⟩ | ⟨h, _⟩ | ⟨_, _, h, hab'⟩
    · cases h
    · cases h
    cases h
    simp only [List.length_append, List.length_cons] at hab'
    rcases hab' with ⟨hl', _⟩ | ⟨_, o1', h1', hh'⟩
    · omega
    by_cases heat : eats k (info k a).2 (.many0 a) = true
    · have hrl : ∀ r vs, oa = .ok r vs → r.length < (b :: B).length := by
        rintro r vs rfl
        have he := heat
        simp only [eats, Bool.and_eq_true] at he
        obtain ⟨od, hd, hrd⟩ := sim_ok hk _ _ _ he.2 _ hn hr
        obtain ⟨ws, rfl⟩ := rest_ok hrd
        exact cons_shorter hd _ _ rfl he.1
      have key : (oa = .failure ∧ o = .failure) ∨ ∃ r vs, oa = .ok r vs ∧ ∃ o1, Peg cst (.many0 a) r o1 ∧ rest o = rest o1 := by
        rcases hab with ⟨rfl, _⟩ | ⟨h1, h2⟩ | ⟨r, vs, rfl, hab⟩
        · exact absurd rfl hn
        · exact .inl ⟨h1, h2⟩
        · have := hrl _ _ rfl
          simp only [List.length_append, List.length_cons] at hab this
          rcases hab with ⟨hl', _⟩ | ⟨_, o1, h1, _, hh⟩
          · omega
          refine .inr ⟨_, _, rfl, o1, h1, ?_⟩
          rcases hh with ⟨_, rfl⟩ | ⟨_, _, rfl, rfl⟩ <;> rfl
      rcases eats_many hk heat hn hr key h1' with ⟨hb, rfl⟩ | ⟨r, vs, vs', rfl, rfl, hl⟩
      · rcases hh' with ⟨_, rfl⟩ | ⟨_, _, rfl, _⟩
        · exact Rel.bad hb
        · exact hb.elim
      · rcases hh' with ⟨hb, _⟩ | ⟨_, _, h, rfl⟩
        · exact hb.elim
        cases h
        exact .past hl
    · have h3 : deadK k a = true ∧ consK a = true := by
        rcases hor with (h' | h') | h'
        · rw [h1] at h'; cases h'
        · exact absurd h' heat
        · exact h'
      cases h1'.unique _ (.many0End (isDead hk h3.1))
      rcases hh' with ⟨hb, _⟩ | ⟨_, _, h, rfl⟩
      · exact hb.elim
      cases h
      have hi : info k (.many0 a) = (true, .seq (info k a).2 (.many0 a)) := by
        simp [info, h1, heat]
      obtain ⟨of, hf, hrf⟩ := hr
      rcases hab with ⟨rfl, _⟩ | ⟨rfl, rfl⟩ | ⟨r, vs, rfl, hab⟩
      · exact absurd rfl hn
      · cases rest_failure hrf
        exact .split (by rw [hi]) nofun (by rw [hi]; exact ⟨_, .seqFirst hf trivial, rfl⟩)
      · have := cons_shorter ha _ _ rfl h3.2
        obtain ⟨us, rfl⟩ := rest_ok hrf
        rcases hab with ⟨hl', _⟩ | ⟨_, o1, h4, _, hh⟩
        · omega
        rcases hh with ⟨hb, rfl⟩ | ⟨_, _, rfl, rfl⟩
        · exact .split (by rw [hi]) (many0_never h3.2 h4) (by rw [hi]; exact ⟨_, .seqSecond hf h4 hb, rfl⟩)
        · exact .split (by rw [hi]) nofun (by rw [hi]; exact ⟨_, .seq hf h4, rfl⟩)

theorem pegMany1 {a : Gr} {s : List Token} {o : Outcome} (h : Peg cst (.many1 a) s o) :
    ∃ oa, Peg cst a s oa ∧ ((oa.Bad ∧ o = oa) ∨ ∃ r vs, oa = .ok r vs ∧ ∃ o1, Peg cst (.many0 a) r o1 ∧
        ((o1.Bad ∧ o = o1) ∨ ∃ q ws, o1 = .ok q [.many ws] ∧ o = .ok q [.many (vs ++ ws)])) := by
  cases h with
  | many1 h h2 => exact ⟨_, h, .inr ⟨_, _, rfl, _, h2, .inr ⟨_, _, rfl, rfl⟩⟩⟩
  | many1First h hb => exact ⟨_, h, .inl ⟨hb, rfl⟩⟩
  | many1Later h h2 hb => exact ⟨_, h, .inr ⟨_, _, rfl, _, h2, .inl ⟨hb, rfl⟩⟩⟩

theorem claim_many1 (hk : Cert k x b B) {a : Gr} {l : List Token} {oa o : Outcome} (ia : Claim k x b B a l oa)
    (hab : (oa.Bad ∧ o = oa) ∨ ∃ r vs, oa = .ok r vs ∧ ∃ o1, Peg cst (.many0 a) r o1 ∧ Claim k x b B (.many0 a) r o1 ∧
        ((o1.Bad ∧ o = o1) ∨ ∃ q ws, o1 = .ok q [.many ws] ∧ o = .ok q [.many (vs ++ ws)])) : Claim k x b B (.many1 a) l o := by
  rintro u rfl hP hok o' ho'
  simp only [okG, Bool.and_eq_true, Bool.or_eq_true, Bool.not_eq_true'] at hok
  obtain ⟨hoka, hor⟩ := hok
  have hok0 : okG k (.many0 a) = true := by
    simp only [okG, Bool.and_eq_true, Bool.or_eq_true, Bool.not_eq_true']
    exact ⟨hoka, .inl hor⟩
  have hi0 : (info k (.many0 a)).1 = false := by
    simp only [info, Bool.and_eq_false_iff, Bool.not_eq_false']
    exact hor
  obtain ⟨oa', ha', hab'⟩ := pegMany1 ho'
  have ra := ia u rfl hP hoka oa' ha'
  have bad : oa.Bad → oa' = oa → Rel k x b B (.many1 a) o o' := by
    rintro hb rfl
    rcases hab with ⟨_, rfl⟩ | ⟨_, _, rfl, _⟩
    · rcases hab' with ⟨_, rfl⟩ | ⟨_, _, rfl, _⟩
      · exact Rel.bad hb
      · exact hb.elim
    · exact hb.elim
  cases ra with
  | error => exact bad trivial rfl
  | failure => exact bad trivial rfl
  | @before u' vs =>
    rcases hab with ⟨hb, _⟩ | ⟨_, _, h, o1, h1, i1, hh⟩
    · exact hb.elim
    cases h
    rcases hab' with ⟨hb, _⟩ | ⟨_, _, h, o1', h1', hh'⟩
    · exact hb.elim
    cases h
    have r1 := i1 u' rfl (hP.rest ha') hok0 o1' h1'
    generalize hg : o1' = o2 at r1
    cases r1 with
    | error =>
      subst hg
      rcases hh with ⟨_, rfl⟩ | ⟨_, _, h, _⟩
      · rcases hh' with ⟨_, rfl⟩ | ⟨_, _, h, _⟩
        · exact .error
        · cases h
      · cases h
    | failure =>
      subst hg
      rcases hh with ⟨_, rfl⟩ | ⟨_, _, h, _⟩
      · rcases hh' with ⟨_, rfl⟩ | ⟨_, _, h, _⟩
        · exact .failure
        · cases h
      · cases h
    | before =>
      subst hg
      rcases hh with ⟨hb, _⟩ | ⟨_, _, h, rfl⟩
      · exact hb.elim
      cases h
      rcases hh' with ⟨hb, _⟩ | ⟨_, _, h, rfl⟩
      · exact hb.elim
      cases h
      exact .before
    | past hl =>
      subst hg
      rcases hh with ⟨hb, _⟩ | ⟨_, _, h, rfl⟩
      · exact hb.elim
      cases h
      rcases hh' with ⟨hb, _⟩ | ⟨_, _, h, rfl⟩
      · exact hb.elim
      cases h
      exact .past hl
    | split hi hn hr => rw [hi0] at hi; cases hi
  | @past r vs vs' hl =>
    rcases hab with ⟨hb, _⟩ | ⟨_, _, h, o1, h1, i1, hh⟩
    · exact hb.elim
    cases h
    rcases hab' with ⟨hb, _⟩ | ⟨_, _, h, o1', h1', hh'⟩
    · exact hb.elim
    cases h
    have := h1.unique _ h1'
    subst this
    rcases hh with ⟨hb, rfl⟩ | ⟨_, _, rfl, rfl⟩
    · rcases hh' with ⟨_, rfl⟩ | ⟨_, _, rfl, _⟩
      · exact Rel.bad hb
      · exact hb.elim
    · rcases hh' with ⟨hb, _⟩ | ⟨_, _, h, rfl⟩
      · exact hb.elim
      cases h
      have := shorter h1
      exact .past (by omega)
  | split h1 hn hr =>
    rcases hab' with ⟨hb, _⟩ | ⟨_, _, h, o1', h1', hh'⟩
    · exact hb.elim
    cases h
    have heat : eats k (info k a).2 (.many0 a) = true := by
      rcases hor with h | h
      · rw [h1] at h; cases h
      · exact h
    have key : (oa = .failure ∧ o = .failure) ∨ ∃ r vs, oa = .ok r vs ∧ ∃ o1, Peg cst (.many0 a) r o1 ∧ rest o = rest o1 := by
      rcases hab with ⟨hb, rfl⟩ | ⟨r, vs, rfl, o1, h1, _, hh⟩
      · cases o with
        | ok => exact hb.elim
        | error => exact absurd rfl hn
        | failure => exact .inl ⟨rfl, rfl⟩
      · refine .inr ⟨_, _, rfl, o1, h1, ?_⟩
        rcases hh with ⟨_, rfl⟩ | ⟨_, _, rfl, rfl⟩ <;> rfl
    rcases eats_many hk heat hn hr key h1' with ⟨hb, rfl⟩ | ⟨r, vs, vs', rfl, rfl, hl⟩
    · rcases hh' with ⟨_, rfl⟩ | ⟨_, _, rfl, _⟩
      · exact Rel.bad hb
      · exact hb.elim
    · rcases hh' with ⟨hb, _⟩ | ⟨_, _, h, rfl⟩
      · exact hb.elim
      cases h
      exact .past hl

/-- Where nothing may end between the words. -/
theorem Rel.tight {e e' : Gr} {o o' : Outcome} (h : Rel k x b B e o o') (hi : (info k e).1 = false) : Rel k x b B e' o o' :=
  h.mono (fun h1 => by rw [hi] at h1; cases h1)

theorem claims (hk : Cert k x b B) {e : Gr} {l : List Token} {o : Outcome} (h : Peg cst e l o) : Claim k x b B e l o := by
  induction h with
  | eps =>
    rintro u rfl hP hok o' ho'
    cases ho'; exact .before
  | @raw y t q hy =>
    rintro u hu hP hok o' ho'
    cases u with
    | nil =>
      cases hu
      have hxk : y = k.kind := by rw [← hy, hk.isB]
      cases ho' with
      | raw _ => exact .split (by simp [info, hxk]) nofun ⟨_, .raw hy, rfl⟩
      | rawOther h => exact absurd (by rw [hk.isX, hxk]) h
    | cons v u =>
      cases hu
      cases ho' with
      | raw _ => exact .before
      | rawOther h => exact absurd hy h
  | @rawOther y t q hy =>
    rintro u hu hP hok o' ho'
    cases u with
    | nil =>
      cases hu
      cases ho' with
      | raw h => exact absurd (by rw [hk.isB, ← hk.isX, h]) hy
      | rawOther h => exact .error
    | cons v u =>
      cases hu
      cases ho' with
      | raw h => exact absurd h hy
      | rawOther h => exact .error
  | rawEnd => rintro u hu; simp at hu
  | any => rintro u hu hP hok; cases hok
  | anyEnd => rintro u hu hP hok; cases hok
  | @call r l o h ih =>
    rintro u rfl hP hok o' ho'
    cases ho' with
    | call ho' =>
      have hc := hk.isOk r
      simp only [checks, Bool.and_eq_true, Bool.or_eq_true, Bool.not_eq_true'] at hc
      simp only [okG, Bool.not_eq_true'] at hok
      rcases hc.1 with (h1 | h1) | h1
      · have hO : Clean (u ++ b :: B) := hP.sub (by intro t ht; simp at ht ⊢; rcases ht with h | h | h <;> simp [h])
        have e1 := off_error (.call h) hO (show offG (.call r) = true from h1)
        have e2 := off_error (.call ho') hP (show offG (.call r) = true from h1)
        subst e1 e2
        exact .error
      · rw [hok] at h1; cases h1
      · have := ih u rfl hP h1 o' ho'
        cases this with
        | error => exact .error
        | failure => exact .failure
        | before => exact .before
        | past hl => exact .past hl
        | split hi hn hr =>
          rcases hc.2 with h2 | ⟨h2, h3⟩
          · rw [hi] at h2; cases h2
          · obtain ⟨o1, h4, h5⟩ := sim_ok hk _ _ _ h3 _ hn hr
            exact .split h2 hn ⟨o1, .call h4, h5⟩
  | seq h1 h2 i1 i2 => exact claim_seq hk h1 i1 (.inr ⟨_, _, rfl, _, h2, i2, .inr ⟨_, _, rfl, rfl⟩⟩)
  | seqFirst h1 hb i1 => exact claim_seq hk h1 i1 (.inl ⟨hb, rfl⟩)
  | seqSecond h1 h2 hb i1 i2 => exact claim_seq hk h1 i1 (.inr ⟨_, _, rfl, _, h2, i2, .inl ⟨hb, rfl⟩⟩)
  | @altFirst a c l o h1 hne i1 =>
    rintro u rfl hP hok o' ho'
    have hO : Clean (u ++ b :: B) := hP.sub (by intro t ht; simp at ht ⊢; rcases ht with h | h | h <;> simp [h])
    simp only [okG, Bool.and_eq_true, Bool.or_eq_true, Bool.not_eq_true', beq_iff_eq] at hok
    obtain ⟨⟨ha, _⟩, _⟩ := hok
    have hoka : okG k a = true := by
      rcases ha with h | h
      · exact h
      · exact absurd (off_error h1 hO h) hne
    have mono : (info k a).1 = true → (info k (.alt a c)).1 = true ∧ (info k (.alt a c)).2 = (info k a).2 := by
      intro h; simp [info, h]
    cases ho' with
    | altFirst h hne' => exact (i1 u rfl hP hoka _ h).mono mono
    | altSecond h hb =>
      cases i1 u rfl hP hoka _ h with
      | error => exact absurd rfl hne
  | @altSecond a c l o h1 h2 i1 i2 =>
    rintro u rfl hP hok o' ho'
    have hO : Clean (u ++ b :: B) := hP.sub (by intro t ht; simp at ht ⊢; rcases ht with h | h | h <;> simp [h])
    simp only [okG, Bool.and_eq_true, Bool.or_eq_true, Bool.not_eq_true', beq_iff_eq] at hok
    obtain ⟨⟨ha, hc⟩, hcore⟩ := hok
    cases ho' with
    | altFirst h hne' =>
      rcases ha with ha | ha
      · generalize hg : Outcome.error = oo at i1
        have := i1 u rfl hP ha _ h
        cases this with
        | error => exact absurd rfl hne'
        | failure => cases hg
        | before => cases hg
        | past => cases hg
        | split _ hn => exact absurd hg.symm hn
      · exact absurd (off_error h hP ha) hne'
    | altSecond h hc' =>
      rcases hc with hc | hc
      · refine (i2 u rfl hP hc _ hc').mono (fun hi => ?_)
        simp only [info, hi, Bool.or_true, true_and]
        split
        · rename_i h
          rcases hcore with (h' | h') | h'
          · rw [h] at h'; cases h'
          · rw [hi] at h'; cases h'
          · exact h'
        · rfl
      · have e1 := off_error h2 hO hc
        have e2 := off_error hc' hP hc
        subst e1 e2
        exact .error
  | @optPresent a l r vs h1 i1 =>
    rintro u rfl hP hok o' ho'
    simp only [okG, Bool.and_eq_true, Bool.not_eq_true'] at hok
    cases ho' with
    | optPresent h =>
      cases i1 u rfl hP hok.1 _ h with
      | before => exact .before
      | past hl => exact .past hl
      | split hi => rw [hok.2] at hi; cases hi
    | optAbsent h => cases i1 u rfl hP hok.1 _ h
    | optFailure h => cases i1 u rfl hP hok.1 _ h
  | @optAbsent a l h1 i1 =>
    rintro u rfl hP hok o' ho'
    simp only [okG, Bool.and_eq_true, Bool.not_eq_true'] at hok
    cases ho' with
    | optPresent h =>
      cases i1 u rfl hP hok.1 _ h with
      | split hi => rw [hok.2] at hi; cases hi
    | optAbsent h => exact .before
    | optFailure h => cases i1 u rfl hP hok.1 _ h
  | @optFailure a l h1 i1 =>
    rintro u rfl hP hok o' ho'
    simp only [okG, Bool.and_eq_true, Bool.not_eq_true'] at hok
    cases ho' with
    | optPresent h =>
      cases i1 u rfl hP hok.1 _ h with
      | split hi => rw [hok.2] at hi; cases hi
    | optAbsent h => cases i1 u rfl hP hok.1 _ h
    | optFailure h => exact .failure
  | many0End h1 i1 => exact claim_many0 hk h1 i1 (.inl ⟨rfl, rfl⟩)
  | many0More h1 hl h2 i1 i2 => exact claim_many0 hk h1 i1 (.inr (.inr ⟨_, _, rfl, .inr ⟨hl, _, h2, i2, .inr ⟨_, _, rfl, rfl⟩⟩⟩))
  | many0Failure h1 i1 => exact claim_many0 hk h1 i1 (.inr (.inl ⟨rfl, rfl⟩))
  | many0Stuck h1 hl i1 => exact claim_many0 hk h1 i1 (.inr (.inr ⟨_, _, rfl, .inl ⟨hl, rfl⟩⟩))
  | many0Later h1 hl h2 hb i1 i2 => exact claim_many0 hk h1 i1 (.inr (.inr ⟨_, _, rfl, .inr ⟨hl, _, h2, i2, .inl ⟨hb, rfl⟩⟩⟩))
  | many1 h1 h2 i1 i2 => exact claim_many1 hk i1 (.inr ⟨_, _, rfl, _, h2, i2, .inr ⟨_, _, rfl, rfl⟩⟩)
  | many1First h1 hb i1 => exact claim_many1 hk i1 (.inl ⟨hb, rfl⟩)
  | many1Later h1 h2 hb i1 i2 => exact claim_many1 hk i1 (.inr ⟨_, _, rfl, _, h2, i2, .inl ⟨hb, rfl⟩⟩)
  | tillEnd => rintro u rfl hP hok; cases hok
  | tillMore => rintro u rfl hP hok; cases hok
  | tillFailure => rintro u rfl hP hok; cases hok
  | tillItem => rintro u rfl hP hok; cases hok
  | tillStuck => rintro u rfl hP hok; cases hok
  | tillLater => rintro u rfl hP hok; cases hok
  | @not a l h1 i1 =>
    rintro u rfl hP hok o' ho'
    simp only [okG, Bool.and_eq_true, Bool.not_eq_true'] at hok
    cases ho' with
    | not h => exact .before
    | notThere h =>
      cases i1 u rfl hP hok.1 _ h with
      | split hi => rw [hok.2] at hi; cases hi
    | notFailure h => cases i1 u rfl hP hok.1 _ h
  | @notThere a l r vs h1 i1 =>
    rintro u rfl hP hok o' ho'
    simp only [okG, Bool.and_eq_true, Bool.not_eq_true'] at hok
    cases ho' with
    | not h => cases i1 u rfl hP hok.1 _ h
    | notThere h => exact .error
    | notFailure h => cases i1 u rfl hP hok.1 _ h
  | @notFailure a l h1 i1 =>
    rintro u rfl hP hok o' ho'
    simp only [okG, Bool.and_eq_true, Bool.not_eq_true'] at hok
    cases ho' with
    | not h => cases i1 u rfl hP hok.1 _ h
    | notThere h =>
      cases i1 u rfl hP hok.1 _ h with
      | split hi => rw [hok.2] at hi; cases hi
    | notFailure h => exact .failure
  | @cut a l o h1 hne i1 =>
    rintro u rfl hP hok o' ho'
    simp only [okG, Bool.and_eq_true, Bool.not_eq_true'] at hok
    cases ho' with
    | cut h hne' => exact (i1 u rfl hP hok.1 _ h).tight hok.2
    | cutError h =>
      cases i1 u rfl hP hok.1 _ h with
      | error => exact absurd rfl hne
  | @cutError a l h1 i1 =>
    rintro u rfl hP hok o' ho'
    simp only [okG, Bool.and_eq_true, Bool.not_eq_true'] at hok
    cases ho' with
    | cut h hne' =>
      have := i1 u rfl hP hok.1 _ h
      generalize hg : Outcome.error = oo at this
      cases this with
      | error => exact absurd rfl hne'
      | failure => cases hg
      | before => cases hg
      | past => cases hg
      | split _ hn => exact absurd hg.symm hn
    | cutError h => exact .failure
  | @must n a l r vs h1 hl i1 =>
    rintro u rfl hP hok o' ho'
    simp only [okG, Bool.and_eq_true, Bool.not_eq_true'] at hok
    cases ho' with
    | must h hl' => exact (i1 u rfl hP hok.1 _ h).tight hok.2
    | mustEmpty h hl' =>
      cases i1 u rfl hP hok.1 _ h with
      | before => simp at hl hl'; exact absurd hl' hl
      | past hp => simp at hl'; omega
      | split hi => rw [hok.2] at hi; cases hi
    | mustBad h hb => exact (i1 u rfl hP hok.1 _ h).tight hok.2
  | @mustEmpty n a l r vs h1 hl i1 =>
    rintro u rfl hP hok o' ho'
    simp only [okG, Bool.and_eq_true, Bool.not_eq_true'] at hok
    cases ho' with
    | must h hl' =>
      cases i1 u rfl hP hok.1 _ h with
      | before => simp at hl hl'; exact absurd hl hl'
      | past hp => simp at hl; omega
      | split hi => rw [hok.2] at hi; cases hi
    | mustEmpty h hl' => exact .error
    | mustBad h hb => cases i1 u rfl hP hok.1 _ h <;> exact hb.elim
  | @mustBad n a l o h1 hb i1 =>
    rintro u rfl hP hok o' ho'
    simp only [okG, Bool.and_eq_true, Bool.not_eq_true'] at hok
    cases ho' with
    | must h hl' => exact (i1 u rfl hP hok.1 _ h).tight hok.2
    | mustEmpty h hl' =>
      cases i1 u rfl hP hok.1 _ h with
      | before => exact hb.elim
      | past hp => exact hb.elim
      | split hi => rw [hok.2] at hi; cases hi
    | mustBad h hb' => exact (i1 u rfl hP hok.1 _ h).tight hok.2
  | @post c a l r vs h1 hc i1 =>
    rintro u rfl hP hok o' ho'
    simp only [okG, Bool.and_eq_true, Bool.not_eq_true'] at hok
    cases ho' with
    | post h hc' => exact (i1 u rfl hP hok.1.2 _ h).tight hok.2
    | postViolated h hc' =>
      cases i1 u rfl hP hok.1.2 _ h with
      | before => rw [hc] at hc'; cases hc'
      | past hl => rw [post_holds hok.1.1 h (by simp; omega)] at hc'; cases hc'
      | split hi => rw [hok.2] at hi; cases hi
    | postBad h hb => exact (i1 u rfl hP hok.1.2 _ h).tight hok.2
  | @postViolated c a l r vs h1 hc i1 =>
    rintro u rfl hP hok o' ho'
    simp only [okG, Bool.and_eq_true, Bool.not_eq_true'] at hok
    cases ho' with
    | post h hc' =>
      cases i1 u rfl hP hok.1.2 _ h with
      | before => rw [hc] at hc'; cases hc'
      | past hl => rw [post_holds hok.1.1 h1 (by simp; omega)] at hc; cases hc
      | split hi => rw [hok.2] at hi; cases hi
    | postViolated h hc' => exact .error
    | postBad h hb => cases i1 u rfl hP hok.1.2 _ h <;> exact hb.elim
  | @postBad c a l o h1 hb i1 =>
    rintro u rfl hP hok o' ho'
    simp only [okG, Bool.and_eq_true, Bool.not_eq_true'] at hok
    cases ho' with
    | post h hc' => exact (i1 u rfl hP hok.1.2 _ h).tight hok.2
    | postViolated h hc' =>
      cases i1 u rfl hP hok.1.2 _ h with
      | before => exact hb.elim
      | past hp => exact hb.elim
      | split hi => rw [hok.2] at hi; cases hi
    | postBad h hb' => exact (i1 u rfl hP hok.1.2 _ h).tight hok.2
  | @wrap sh a l r vs h1 i1 =>
    rintro u rfl hP hok o' ho'
    simp only [okG] at hok
    cases ho' with
    | wrap h =>
      cases i1 u rfl hP hok _ h with
      | before => exact .before
      | past hl => exact .past hl
      | split hi hn hr => 
        obtain ⟨o2, h3, h4⟩ := hr
        exact .split hi nofun ⟨o2, h3, h4⟩
    | wrapBad h hb => cases i1 u rfl hP hok _ h <;> exact hb.elim
  | @wrapBad sh a l o h1 hb i1 =>
    rintro u rfl hP hok o' ho'
    simp only [okG] at hok
    cases ho' with
    | wrap h =>
      cases i1 u rfl hP hok _ h with
      | before => exact hb.elim
      | past hp => exact hb.elim
      | split hi hn hr => exact .split hi hn hr
    | wrapBad h hb' => exact (i1 u rfl hP hok _ h).mono (fun h => ⟨h, rfl⟩)

end Sneturfahi.Dup
