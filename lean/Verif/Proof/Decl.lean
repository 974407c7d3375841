import Verif.Spec.Decl

/-!
# The code made by the macro reads what the declaration says
-/

namespace Sneturfahi.Props

open Spec Rust Derive

theorem reader_ext {R S : Reader} (h : ∀ s o, R s o ↔ S s o) : R = S := by
  funext s o; exact propext (h s o)

section
variable (G : CRule → Gr)

theorem inOrder_single (R : Reader) : InOrder [R] = R := by
  refine reader_ext fun s o => ⟨fun h => ?_, fun h => ?_⟩
  · cases h with
    | next h1 h2 => cases h2; simpa using h1
    | stop h1 h2 => exact h1
    | later h1 h2 h3 => cases h2; exact h3.elim
  · cases o with
    | ok r vs => have := InOrder.next h (InOrder.done); simpa using this
    | error => exact .stop h trivial
    | failure => exact .stop h trivial

theorem peg_seq (a b : Gr) (Rs : List Reader) (hb : Peg G b = InOrder Rs) :
    Peg G (.seq a b) = InOrder (Peg G a :: Rs) := by
  refine reader_ext fun s o => ⟨fun h => ?_, fun h => ?_⟩
  · cases h with
    | seq h1 h2 => exact .next h1 (hb ▸ h2)
    | seqFirst h1 h2 => exact .stop h1 h2
    | seqSecond h1 h2 h3 => exact .later h1 (hb ▸ h2) h3
  · cases h with
    | next h1 h2 => exact .seq h1 (hb ▸ h2)
    | stop h1 h2 => exact .seqFirst h1 h2
    | later h1 h2 h3 => exact .seqSecond h1 (hb ▸ h2) h3

theorem peg_seqs (l : List Gr) : Peg G (seqs l) = InOrder (l.map (Peg G)) := by
  induction l with
  | nil =>
    refine reader_ext fun s o => ⟨fun h => ?_, fun h => ?_⟩
    · cases h; exact .done
    · cases h; exact .eps
  | cons a l ih =>
    cases l with
    | nil => simp only [seqs, List.map]; exact (inOrder_single _).symm
    | cons b l => simp only [seqs]; exact peg_seq G _ _ _ ih

theorem inOrder_append (As Bs : List Reader) : InOrder (As ++ Bs) = InOrder (InOrder As :: Bs) := by
  induction As with
  | nil =>
    refine reader_ext fun s o => ⟨fun h => ?_, fun h => ?_⟩
    · cases o with
      | ok r vs => exact InOrder.next (vs := []) .done h
      | error => exact InOrder.later .done h trivial
      | failure => exact InOrder.later .done h trivial
    · cases h with
      | next h1 h2 => cases h1; exact h2
      | stop h1 h2 => cases h1; exact h2.elim
      | later h1 h2 h3 => cases h1; exact h2
  | cons R As ih =>
    rw [List.cons_append]
    refine reader_ext fun s o => ⟨fun h => ?_, fun h => ?_⟩
    · cases h with
      | next h1 h2 =>
        rw [ih] at h2
        cases h2 with
        | next h2 h3 => rw [← List.append_assoc]; exact .next (.next h1 h2) h3
        | stop h2 h3 => exact h3.elim
        | later h2 h3 h4 => exact h4.elim
      | stop h1 h2 => exact .stop (.stop h1 h2) h2
      | later h1 h2 h3 =>
        rw [ih] at h2
        cases h2 with
        | next h2 h4 => exact h3.elim
        | stop h2 h4 => exact .stop (.later h1 h2 h4) h4
        | later h2 h4 h5 => exact .later (.next h1 h2) h4 h5
    · cases h with
      | next h1 h2 =>
        cases h1 with
        | next h1 h3 =>
          rw [List.append_assoc]
          exact InOrder.next h1 (by rw [ih]; exact .next h3 h2)
        | stop h1 h3 => exact h3.elim
        | later h1 h3 h4 => exact h4.elim
      | stop h1 h2 =>
        cases h1 with
        | next h1 h3 => exact h2.elim
        | stop h1 h3 => exact .stop h1 h2
        | later h1 h3 h4 => exact InOrder.later h1 (by rw [ih]; exact .stop h3 h4) h2
      | later h1 h2 h3 =>
        cases h1 with
        | next h1 h4 => exact InOrder.later h1 (by rw [ih]; exact .later h4 h2 h3) h3
        | stop h1 h4 => exact h4.elim
        | later h1 h4 h5 => exact h5.elim

theorem inOrder_congr {R S : Reader} {As Bs : List Reader} (h : R = S) (h' : InOrder As = InOrder Bs) :
    InOrder (R :: As) = InOrder (S :: Bs) := by
  have h1 : InOrder ([R] ++ As) = InOrder (R :: As) := rfl
  subst h
  refine reader_ext fun s o => ⟨fun h => ?_, fun h => ?_⟩
  · cases h with
    | next h1 h2 => exact .next h1 (h' ▸ h2)
    | stop h1 h2 => exact .stop h1 h2
    | later h1 h2 h3 => exact .later h1 (h' ▸ h2) h3
  · cases h with
    | next h1 h2 => exact .next h1 (h' ▸ h2)
    | stop h1 h2 => exact .stop h1 h2
    | later h1 h2 h3 => exact .later h1 (h' ▸ h2) h3

theorem inOrder_flatten (Ls : List (List Reader)) : InOrder Ls.flatten = InOrder (Ls.map InOrder) := by
  induction Ls with
  | nil => rfl
  | cons L Ls ih =>
    rw [List.flatten_cons, inOrder_append, List.map_cons]
    exact inOrder_congr rfl ih

theorem firstOf_single (R : Reader) : FirstOf [R] = R := by
  refine reader_ext fun s o => ⟨fun h => ?_, fun h => ?_⟩
  · cases h with
    | this h1 h2 => exact h1
    | other h1 h2 => cases h2; exact h1
  · by_cases e : o = .error
    · subst e; exact .other h .none
    · exact .this h e

theorem firstOf_alt (a b : Gr) (Rs : List Reader) :
    FirstOf (Peg G (.alt a b) :: Rs) = FirstOf (Peg G a :: Peg G b :: Rs) := by
  refine reader_ext fun s o => ⟨fun h => ?_, fun h => ?_⟩
  · cases h with
    | this h1 h2 =>
      cases h1 with
      | altFirst h3 h4 => exact .this h3 h4
      | altSecond h3 h4 => exact .other h3 (.this h4 h2)
    | other h1 h2 =>
      cases h1 with
      | altFirst h3 h4 => exact absurd rfl h4
      | altSecond h3 h4 => exact .other h3 (.other h4 h2)
  · cases h with
    | this h1 h2 => exact .this (.altFirst h1 h2) h2
    | other h1 h2 =>
      cases h2 with
      | this h3 h4 => exact .this (.altSecond h1 h3) h4
      | other h3 h4 => exact .other (.altSecond h1 h3) h4

theorem peg_alts (a : Gr) (l : List Gr) : Peg G (alts a l) = FirstOf ((a :: l).map (Peg G)) := by
  induction l generalizing a with
  | nil => simp only [alts, List.map]; exact (firstOf_single _).symm
  | cons b l ih => simp only [alts, ih]; exact firstOf_alt G _ _ _

theorem peg_not (a : Gr) : Peg G (.not a) = Unless (Peg G a) := by
  refine reader_ext fun s o => ⟨fun h => ?_, fun h => ?_⟩
  · cases h with
    | not h => exact .clear h
    | notThere h => exact .there h
    | notFailure h => exact .failure h
  · cases h with
    | clear h => exact .not h
    | there h => exact .notThere h
    | failure h => exact .notFailure h

theorem peg_cut (a : Gr) : Peg G (.cut a) = OrFail (Peg G a) := by
  refine reader_ext fun s o => ⟨fun h => ?_, fun h => ?_⟩
  · cases h with
    | cut h h' => exact .as_is h h'
    | cutError h => exact .fails h
  · cases h with
    | as_is h h' => exact .cut h h'
    | fails h => exact .cutError h

theorem peg_wrap (sh : CShape) (a : Gr) : Peg G (.wrap sh a) = Making sh (Peg G a) := by
  refine reader_ext fun s o => ⟨fun h => ?_, fun h => ?_⟩
  · cases h with
    | wrap h => exact .good h rfl
    | wrapBad h h' => exact .bad h h'
  · cases h with
    | good h h' => cases h'; exact .wrap h
    | wrong h h' => cases h'
    | bad h h' => exact .wrapBad h h'

theorem peg_must (n : NodeName) (a : Gr) : Peg G (.mustConsume n a) = Something (Peg G a) := by
  refine reader_ext fun s o => ⟨fun h => ?_, fun h => ?_⟩
  · cases h with
    | must h h' => exact .good h (if_neg h')
    | mustEmpty h h' => exact .wrong h (if_pos h')
    | mustBad h h' => exact .bad h h'
  · cases h with
    | good h h' => split at h' <;> cases h'; rename_i e; exact .must h e
    | wrong h h' => split at h' <;> cases h'; rename_i e; exact .mustEmpty h e
    | bad h h' => exact .mustBad h h'

theorem peg_post (c : PostCond) (a : Gr) : Peg G (.postCond c a) = Checked c (Peg G a) := by
  refine reader_ext fun s o => ⟨fun h => ?_, fun h => ?_⟩
  · cases h with
    | post h h' => exact .good h (if_pos h')
    | postViolated h h' => exact .wrong h (by simp [h'])
    | postBad h h' => exact .bad h h'
  · cases h with
    | good h h' => split at h' <;> cases h'; rename_i e; exact .post h e
    | wrong h h' => split at h' <;> cases h'; rename_i e; exact .postViolated h (by simpa using e)
    | bad h h' => exact .postBad h h'

theorem peg_checkAll (cs : List PostCond) (a : Gr) : Peg G (checkAll cs a) = CheckedAll cs (Peg G a) := by
  induction cs generalizing a with
  | nil => rfl
  | cons c cs ih => simp only [checkAll, CheckedAll, ih, peg_post]

theorem many0_to {a : Gr} {e : Gr} {s : List Token} {o : Outcome} (h : Peg G e s o) :
    e = .many0 a → (∃ r vs, o = .ok r [.many vs] ∧ Repeated (Peg G a) s (.ok r vs)) ∨
      (o.Bad ∧ Repeated (Peg G a) s o) := by
  induction h with
  | many0End h => intro e; cases e; exact .inl ⟨_, _, rfl, .done h⟩
  | many0More h h1 h2 _ ih =>
    intro e; cases e
    rcases ih rfl with ⟨r, vs, e, h3⟩ | ⟨h3, _⟩
    · cases e; exact .inl ⟨_, _, rfl, .more h h1 h3⟩
    · exact h3.elim
  | many0Failure h => intro e; cases e; exact .inr ⟨trivial, .failure h⟩
  | many0Stuck h h1 => intro e; cases e; exact .inr ⟨trivial, .stuck h h1⟩
  | many0Later h h1 h2 h3 _ ih =>
    intro e; cases e
    rcases ih rfl with ⟨r, vs, e, h4⟩ | ⟨h4, h5⟩
    · cases e; exact h3.elim
    · exact .inr ⟨h3, .later h h1 h5 h3⟩
  | _ => intro e; cases e

theorem many0_from {a : Gr} {s : List Token} {o : Outcome} (h : Repeated (Peg G a) s o) :
    (∀ r vs, o = .ok r vs → Peg G (.many0 a) s (.ok r [.many vs])) ∧ (o.Bad → Peg G (.many0 a) s o) := by
  induction h with
  | done h => exact ⟨fun r vs e => by cases e; exact .many0End h, fun h => h.elim⟩
  | more h h1 _ ih => exact ⟨fun r vs e => by cases e; exact .many0More h h1 (ih.1 _ _ rfl), fun h => h.elim⟩
  | failure h => exact ⟨fun r vs e => (nomatch e), fun _ => .many0Failure h⟩
  | stuck h h1 => exact ⟨fun r vs e => (nomatch e), fun _ => .many0Stuck h h1⟩
  | later h h1 _ h3 ih => exact ⟨fun r vs e => by cases e; exact h3.elim, fun _ => .many0Later h h1 (ih.2 h3) h3⟩

theorem peg_many0 (a : Gr) : Peg G (.many0 a) = Listed (Repeated (Peg G a)) := by
  refine reader_ext fun s o => ⟨fun h => ?_, fun h => ?_⟩
  · rcases many0_to G h rfl with ⟨r, vs, rfl, h1⟩ | ⟨h1, h2⟩
    · exact .good h1 rfl
    · exact .bad h2 h1
  · cases h with
    | good h h' => cases h'; exact (many0_from G h).1 _ _ rfl
    | wrong h h' => cases h'
    | bad h h' => exact (many0_from G h).2 h'

theorem peg_many1 (a : Gr) : Peg G (.many1 a) = Listed (RepeatedOnce (Peg G a)) := by
  refine reader_ext fun s o => ⟨fun h => ?_, fun h => ?_⟩
  · cases h with
    | many1 h h1 =>
      rcases many0_to G h1 rfl with ⟨r, vs, e, h2⟩ | ⟨h2, _⟩
      · cases e; exact .good (.more h h2) rfl
      · exact h2.elim
    | many1First h h1 => exact .bad (.stop h h1) h1
    | many1Later h h1 h2 =>
      rcases many0_to G h1 rfl with ⟨r, vs, e, h3⟩ | ⟨h3, h4⟩
      · cases e; exact h2.elim
      · exact .bad (.later h h4 h2) h2
  · cases h with
    | good h h' =>
      cases h'
      cases h with
      | more h h1 => exact .many1 h ((many0_from G h1).1 _ _ rfl)
      | stop h h1 => exact h1.elim
      | later h h1 h2 => exact h2.elim
    | wrong h h' => cases h'
    | bad h h' =>
      cases h with
      | more h h1 => exact h'.elim
      | stop h h1 => exact .many1First h h1
      | later h h1 h2 => exact .many1Later h ((many0_from G h1).2 h2) h2

/-! ### The macro -/

variable (ty : RTy → Option Gr)

/-- How types are read, if `ty` gives their parsers. -/
def TypeReads : RTy → Reader := fun t s o => ∃ g, ty t = some g ∧ Peg G g s o

theorem typeReads_eq {t : RTy} {g : Gr} (h : ty t = some g) : TypeReads G ty t = Peg G g := by
  refine reader_ext fun s o => ⟨fun ⟨g', h1, h2⟩ => ?_, fun h1 => ⟨g, h, h1⟩⟩
  rw [h] at h1; cases h1; exact h2

theorem allSome_map {α β : Type} {f : α → Option β} {l : List α} {m : List β} (h : allSome f l = some m) :
    l.map f = m.map some := by
  induction l generalizing m with
  | nil => simp only [allSome] at h; cases h; rfl
  | cons a l ih =>
    simp only [allSome] at h
    split at h <;> try cases h
    split at h <;> cases h
    rename_i h1 _ _ h2
    simp [h1, ih h2]

theorem allSome_length {α β : Type} {f : α → Option β} {l : List α} {m : List β} (h : allSome f l = some m) :
    m.length = l.length := by simpa using (congrArg List.length (allSome_map h)).symm

theorem map_typeReads {ts : List RTy} {gs : List Gr} (h : allSome ty ts = some gs) :
    ts.map (TypeReads G ty) = gs.map (Peg G) := by
  induction ts generalizing gs with
  | nil => simp only [allSome] at h; cases h; rfl
  | cons t ts ih =>
    simp only [allSome] at h
    split at h <;> try cases h
    split at h <;> cases h
    rename_i h1 _ _ h2
    simp [ih h2, typeReads_eq G ty h1]

theorem map_unless {ts : List RTy} {gs : List Gr} (h : allSome ty ts = some gs) :
    (gs.map Gr.not).map (Peg G) = ts.map (fun t => Unless (TypeReads G ty t)) := by
  have := congrArg (List.map Unless) (map_typeReads G ty h)
  simp only [List.map_map] at this ⊢
  rw [show (fun t => Unless (TypeReads G ty t)) = Unless ∘ TypeReads G ty from rfl, this]
  refine List.map_congr_left fun g _ => ?_
  exact peg_not G g

theorem content_eq {w : Option (List Char)} {t : RTy} {g : Gr} (h : content ty w t = some g) :
    Peg G g = ContentReads (TypeReads G ty) w t := by
  unfold content at h
  cases w with
  | none =>
    rw [← typeReads_eq G ty h]
    refine reader_ext fun s o => ⟨fun h => .plain h, fun h => ?_⟩
    cases h with
    | plain h => exact h
  | some w =>
    cases t with
    | slice t =>
      simp only at h
      split at h
      · rename_i e
        have e : w = c!"many0" := by simpa using e
        subst e
        rw [Option.map_eq_some_iff] at h
        obtain ⟨a, h1, rfl⟩ := h
        rw [peg_many0, ← typeReads_eq G ty h1]
        refine reader_ext fun s o => ⟨fun h => .many0 h, fun h => ?_⟩
        cases h with
        | many0 h => exact h
      · split at h
        · rename_i e
          have e : w = c!"many1" := by simpa using e
          subst e
          rw [Option.map_eq_some_iff] at h
          obtain ⟨a, h1, rfl⟩ := h
          rw [peg_many1, ← typeReads_eq G ty h1]
          refine reader_ext fun s o => ⟨fun h => .many1 h, fun h => ?_⟩
          cases h with
          | many1 h => exact h
        · cases h
    | _ => simp only at h; cases h

theorem element_eq {f : RField} {es : List Gr} (h : element ty f = some es) :
    ∃ a, (parseAttributes f.attrs).bind fieldAttrs = some a ∧
      InOrder (es.map (Peg G)) = FieldReads (TypeReads G ty) a f.ty := by
  unfold element at h
  split at h; · cases h
  rename_i ps hps
  split at h; · cases h
  rename_i a ha
  refine ⟨a, by rw [hps]; exact ha, ?_⟩
  split at h
  · rename_i inner nots hi hn
    cases h
    rw [List.map_append, map_unless G ty hn, FieldReads]
    have hc := content_eq G ty hi
    congr 2
    simp only [List.map, List.cons.injEq, and_true]
    split
    · rw [peg_cut, hc]
    · exact hc
  · cases h

theorem elements_eq {fs : List RField} {es : List Gr} (h : elements ty fs = some es) :
    ∃ as : List FieldAttrs, fs.map (fun f => (parseAttributes f.attrs).bind fieldAttrs) = as.map some ∧
      InOrder (es.map (Peg G)) = InOrder ((fs.zip as).map fun p => FieldReads (TypeReads G ty) p.2 p.1.ty) := by
  unfold elements at h
  rw [Option.map_eq_some_iff] at h
  obtain ⟨ess, h, rfl⟩ := h
  rw [List.map_flatten, inOrder_flatten]
  induction fs generalizing ess with
  | nil => simp only [allSome] at h; cases h; exact ⟨[], rfl, rfl⟩
  | cons f fs ih =>
    simp only [allSome] at h
    split at h <;> try cases h
    split at h <;> cases h
    rename_i h1 _ _ h2
    obtain ⟨a, ha, h3⟩ := element_eq G ty h1
    obtain ⟨as, has, h4⟩ := ih _ h2
    refine ⟨a :: as, by simp [ha, has], ?_⟩
    simp only [List.map_cons, List.zip_cons_cons]
    exact inOrder_congr h3 h4

theorem some_inj_map {α : Type} {l m : List α} (h : l.map some = m.map some) : l = m := by
  induction l generalizing m with
  | nil => cases m with
    | nil => rfl
    | cons _ _ => cases h
  | cons a l ih => cases m with
    | nil => cases h
    | cons b m =>
      simp only [List.map_cons, List.cons.injEq, Option.some.injEq] at h
      rw [h.1, ih h.2]

theorem body_eq {fs : List RField} {must : Bool} {n : List Char} {g : Gr} (plain : ¬ OneSpan fs)
    (h : implementStruct ty fs must n = some g) : Peg G g = BodyReads (TypeReads G ty) fs must n := by
  unfold implementStruct at h
  rw [if_neg plain] at h
  split at h
  · rename_i es shape he hs
    obtain ⟨as, has, h1⟩ := elements_eq G ty he
    have key : Peg G g = (if must then Something else id)
        (Making shape (InOrder ((fs.zip as).map fun p => FieldReads (TypeReads G ty) p.2 p.1.ty))) := by
      split at h
      · rename_i e
        rw [if_pos e]
        split at h
        · cases h
          rw [peg_must, peg_wrap, peg_seqs, h1]
        · cases h
      · rename_i e; cases h
        rw [if_neg e, peg_wrap, peg_seqs, h1]; rfl
    rw [key]
    refine reader_ext fun s o => ⟨fun h => .mk has hs h, fun h => ?_⟩
    cases h with
    | mk has' hs' h =>
      rw [hs] at hs'; cases hs'
      rw [has] at has'
      cases some_inj_map has'
      exact h
  · cases h

theorem branches_eq {name : List Char} {vs : List RVariant} {gs : List Gr} (plain : ∀ v ∈ vs, ¬ OneSpan v.fields)
    (h : allSome (branch ty name) vs = some gs) :
    ∃ must : List Bool, vs.map (fun v => (parseAttributes v.attrs).bind variantAttrs) = must.map some ∧
      gs.map (Peg G) = (vs.zip must).map fun p =>
        BodyReads (TypeReads G ty) p.1.fields p.2 (name ++ c!"::" ++ p.1.name) := by
  induction vs generalizing gs with
  | nil => simp only [allSome] at h; cases h; exact ⟨[], rfl, rfl⟩
  | cons v vs ih =>
    simp only [allSome] at h
    split at h <;> try cases h
    split at h <;> cases h
    rename_i h1 _ _ h2
    unfold branch at h1
    split at h1; · cases h1
    rename_i ps hps
    split at h1; · cases h1
    rename_i must hm
    obtain ⟨ms, hms, h4⟩ := ih (fun v hv => plain v (List.mem_cons_of_mem _ hv)) h2
    refine ⟨must :: ms, by simp [hps, hm, hms], ?_⟩
    simp only [List.map_cons, List.zip_cons_cons, h4, List.cons.injEq, and_true]
    exact body_eq G ty (plain v List.mem_cons_self) h1

theorem decl_eq {i : RItem} {g : Gr} (plain : Plain i) (h : implementParse ty i = some g) :
    Peg G g = DeclReads (TypeReads G ty) i := by
  unfold implementParse at h
  split at h; · cases h
  rename_i ps hps
  split at h; · cases h
  rename_i c hc
  split at h
  · rename_i inner conds nots hi hcs hn
    cases h
    have hcs := allSome_map hcs
    rw [peg_seqs, List.map_cons, map_unless G ty hn, peg_checkAll]
    cases hd : i.data with
    | alias t => rw [hd] at hi; cases hi
    | struct fs =>
      rw [hd] at hi
      rw [body_eq G ty (plain.1 fs hd) hi]
      refine reader_ext fun s o => ⟨fun h => .struct hd hps hc hcs h, fun h => ?_⟩
      cases h with
      | struct hd' hps' hc' hcs' h =>
        rw [hd] at hd'; cases hd'
        rw [hps] at hps'; cases hps'
        rw [hc] at hc'; cases hc'
        rw [hcs] at hcs'; cases some_inj_map hcs'
        exact h
      | enum hd' => rw [hd] at hd'; cases hd'
    | enum vs =>
      rw [hd, implementData] at hi
      split at hi
      · rename_i b bs hb
        cases hi
        obtain ⟨must, hm, h1⟩ := branches_eq G ty (plain.2 vs hd) hb
        rw [peg_alts, h1]
        refine reader_ext fun s o => ⟨fun h => .enum hd hps hc hcs hm h, fun h => ?_⟩
        cases h with
        | enum hd' hps' hc' hcs' hm' h =>
          rw [hd] at hd'; cases hd'
          rw [hps] at hps'; cases hps'
          rw [hc] at hc'; cases hc'
          rw [hcs] at hcs'; cases some_inj_map hcs'
          rw [hm] at hm'; cases some_inj_map hm'
          exact h
        | struct hd' => rw [hd] at hd'; cases hd'
      · cases hi
  · cases h

end

end Sneturfahi.Props

namespace Sneturfahi.Props

open Spec Rust Derive

/-! ### Types -/

/-- `ty'` gives the parsers `ty` gives, and perhaps more. -/
def Extends (ty ty' : RTy → Option Gr) : Prop := ∀ t g, ty t = some g → ty' t = some g

theorem allSome_mono {α β : Type} {f f' : α → Option β} (h : ∀ a b, f a = some b → f' a = some b) {l : List α} {m : List β}
    (hm : allSome f l = some m) : allSome f' l = some m := by
  induction l generalizing m with
  | nil => simpa [allSome] using hm
  | cons a l ih =>
    simp only [allSome] at hm ⊢
    split at hm <;> try cases hm
    split at hm <;> cases hm
    rename_i h1 _ _ h2
    rw [h _ _ h1]
    simp only [ih h2]

theorem content_mono {ty ty' : RTy → Option Gr} (h : Extends ty ty') {w : Option (List Char)} {t : RTy} {g : Gr}
    (hc : content ty w t = some g) : content ty' w t = some g := by
  unfold content at hc ⊢
  split at hc
  · exact h _ _ hc
  · split
    · rename_i e; rw [if_pos e] at hc
      simp only [Option.map_eq_some_iff] at hc ⊢
      obtain ⟨b, hb, rfl⟩ := hc; exact ⟨b, h _ _ hb, rfl⟩
    · rename_i e; rw [if_neg e] at hc
      split
      · rename_i e; rw [if_pos e] at hc
        simp only [Option.map_eq_some_iff] at hc ⊢
        obtain ⟨b, hb, rfl⟩ := hc; exact ⟨b, h _ _ hb, rfl⟩
      · rename_i e; rw [if_neg e] at hc; exact hc
  · cases hc

theorem element_mono {ty ty' : RTy → Option Gr} (h : Extends ty ty') {f : RField} {es : List Gr}
    (he : element ty f = some es) : element ty' f = some es := by
  unfold element at he ⊢
  split at he; · cases he
  split at he; · cases he
  split at he
  · rename_i hi hn
    simp only [content_mono h hi, allSome_mono h hn]
    exact he
  · cases he

theorem struct_mono {ty ty' : RTy → Option Gr} (h : Extends ty ty') {fs : List RField} {must : Bool} {n : List Char} {g : Gr}
    (he : implementStruct ty fs must n = some g) : implementStruct ty' fs must n = some g := by
  unfold implementStruct at he ⊢
  split
  · rename_i e; rw [if_pos e] at he; exact he
  · rename_i e
    rw [if_neg e] at he
    split at he
    · rename_i es shape hes hs
      unfold elements at hes ⊢
      rw [Option.map_eq_some_iff] at hes
      obtain ⟨ess, hes, rfl⟩ := hes
      rw [allSome_mono (fun _ _ => element_mono h) hes, hs]
      exact he
    · cases he

theorem branch_mono {ty ty' : RTy → Option Gr} (h : Extends ty ty') {name : List Char} (v : RVariant) (g : Gr)
    (he : branch ty name v = some g) : branch ty' name v = some g := by
  unfold branch at he ⊢
  split at he; · cases he
  split at he; · cases he
  exact struct_mono h he

theorem data_mono {ty ty' : RTy → Option Gr} (h : Extends ty ty') {name : List Char} {d : RData} {g : Gr}
    (he : implementData ty name d = some g) : implementData ty' name d = some g := by
  cases d with
  | alias t => cases he
  | struct fs => exact struct_mono h he
  | enum vs =>
    simp only [implementData] at he ⊢
    split at he
    · rename_i hb
      simp only [allSome_mono (branch_mono h) hb]; exact he
    · cases he

theorem parse_mono {ty ty' : RTy → Option Gr} (h : Extends ty ty') {i : RItem} {g : Gr}
    (he : implementParse ty i = some g) : implementParse ty' i = some g := by
  unfold implementParse at he ⊢
  split at he; · cases he
  split at he; · cases he
  split at he
  · rename_i hi hcs hn
    simp only [data_mono h hi, hcs, allSome_mono h hn]
    exact he
  · cases he

theorem tyGr_step (names : Names) (fuel : Nat) (env : List (List Char × Gr)) (self : Option Gr) :
    Extends (tyGr names fuel env self) (tyGr names (fuel + 1) env self) := by
  induction fuel generalizing env self with
  | zero => intro t g h; cases h
  | succ fuel ih =>
    intro t g h
    cases t with
    | tuple l =>
      simp only [tyGr, Option.map_eq_some_iff] at h ⊢
      obtain ⟨es, he, rfl⟩ := h
      exact ⟨es, allSome_mono (ih env self) he, rfl⟩
    | name n args =>
      unfold tyGr at h ⊢
      simp only at h ⊢
      split
      · rename_i e; rw [if_pos e] at h; exact h
      rename_i e
      rw [if_neg e] at h
      split at h
      · exact h
      split
      · rename_i e'; rw [if_pos e'] at h
        split at h
        · simp only [Option.map_eq_some_iff] at h ⊢
          obtain ⟨b, hb, rfl⟩ := h
          exact ⟨b, ih env self _ _ hb, rfl⟩
        · cases h
      rename_i e'
      rw [if_neg e'] at h
      split
      · rename_i e2; rw [if_pos e2] at h; exact h
      rename_i e2
      rw [if_neg e2] at h
      split
      · rename_i e3; rw [if_pos e3] at h; exact h
      rename_i e3
      rw [if_neg e3] at h
      split at h
      · cases h
      rename_i item hitem
      split at h
      · exact ih _ _ _ _ h
      split at h
      · exact h
      split at h
      · cases h
      rename_i gs hgs
      simp only [allSome_mono (ih env self) hgs]
      split
      · rename_i e4; rw [if_pos e4] at h; exact parse_mono (ih _ _) h
      · rename_i e4; rw [if_neg e4] at h; cases h
    | _ => cases h

theorem tyGr_mono (names : Names) {n m : Nat} (h : n ≤ m) (env : List (List Char × Gr)) (self : Option Gr) :
    Extends (tyGr names n env self) (tyGr names m env self) := by
  induction m with
  | zero => cases Nat.le_zero.mp h; exact fun _ _ => id
  | succ m ih =>
    rcases Nat.lt_or_ge m n with h1 | h1
    · have : n = m + 1 := by omega
      subst this; exact fun _ _ => id
    · exact fun t g hg => tyGr_step names m env self t g (ih h1 t g hg)

end Sneturfahi.Props
