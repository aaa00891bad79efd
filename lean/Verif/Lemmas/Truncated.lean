import Verif.Spec.Json
import Verif.Spec.Ical
import Verif.Lemmas.Json
/-
Reading a text that is cut off: what the readers of `Spec/Json` and `Spec/Ical` accept cannot be continued.
-/
set_option autoImplicit false

namespace Verif.Lemmas
open Verif.Go Verif.Model Verif.Spec

/-! ### JSON -/

theorem readDigits_extend (q : List Char) : ∀ (text : List Char) (acc : Nat) {k : Nat} {rest : List Char},
    readDigits acc text = (k, rest) → rest ≠ [] → readDigits acc (text ++ q) = (k, rest ++ q)
  | [], acc, k, rest, h, hr => by simp only [readDigits, Prod.mk.injEq] at h; exact absurd h.2.symm hr
  | c :: text, acc, k, rest, h, hr => by
    rw [List.cons_append]
    unfold readDigits at h ⊢
    cases hc : digitVal c with
    | none =>
      rw [hc] at h
      simp only [Prod.mk.injEq] at h ⊢
      exact ⟨h.1, by rw [← h.2]; rfl⟩
    | some d =>
      rw [hc] at h
      exact readDigits_extend q text _ h hr

theorem readNat_extend (q text : List Char) {k : Nat} {rest : List Char} (h : readNat text = some (k, rest)) (hr : rest ≠ []) :
    readNat (text ++ q) = some (k, rest ++ q) := by
  cases text with
  | nil => simp [readNat] at h
  | cons c text =>
    rw [List.cons_append]
    simp only [readNat] at h ⊢
    cases hc : digitVal c with
    | none => rw [hc] at h; simp at h
    | some d =>
      rw [hc] at h
      simp only [Option.map_some, Option.some.injEq] at h ⊢
      exact readDigits_extend q text d h hr

theorem readChars_extend (q : List Char) (text : List Char) {s rest : List Char} (h : readChars text = some (s, rest)) :
    readChars (text ++ q) = some (s, rest ++ q) := by
  fun_induction readChars text generalizing s rest with
  | case1 => simp at h
  | case2 r => simp only [Option.some.injEq, Prod.mk.injEq] at h; obtain ⟨rfl, rfl⟩ := h; simp [readChars]
  | case3 a b c d r ih =>
    simp only [Option.bind_eq_bind, Option.bind_eq_some_iff] at h
    obtain ⟨va, ha, vb, hb, vc, hc, vd, hd, ⟨s', r'⟩, hr, h⟩ := h
    simp only [Option.some.injEq, Prod.mk.injEq] at h
    obtain ⟨rfl, rfl⟩ := h
    simp [readChars, ha, hb, hc, hd, ih hr]
  | case4 c r hne ih =>
    simp only [Option.bind_eq_bind, Option.bind_eq_some_iff] at h
    obtain ⟨x, hx, ⟨s', r'⟩, hr, h⟩ := h
    simp only [Option.some.injEq, Prod.mk.injEq] at h
    obtain ⟨rfl, rfl⟩ := h
    have hu : c ≠ 'u' := by rintro rfl; simp at hx
    rw [List.cons_append, List.cons_append, readChars]
    · simp only [Option.bind_eq_bind, hx, Option.bind_some, ih hr]
    · intro a b c d r e _; exact hu e
  | case5 => simp at h
  | case6 c r h1 h2 h3 h4 ih =>
    simp only [Option.bind_eq_bind, Option.bind_eq_some_iff] at h
    obtain ⟨⟨s', r'⟩, hr, h⟩ := h
    simp only [Option.some.injEq, Prod.mk.injEq] at h
    obtain ⟨rfl, rfl⟩ := h
    have n1 : c ≠ '"' := h1
    have n2 : c ≠ '\\' := by
      rintro rfl
      cases r with
      | nil => simp_all
      | cons x r => simp_all
    rw [List.cons_append, readChars_plain n1 n2, ih hr]
    rfl

/-- A value that shows its end: not a number up to the end of the text. -/
def Ended (j : Json) (rest : List Char) : Prop := rest ≠ [] ∨ ∀ i, j ≠ .num i

theorem read_extend (q : List Char) (n : Nat) :
    (∀ (text : List Char) (j : Json) (rest : List Char), readValue n text = some (j, rest) → Ended j rest →
      readValue n (text ++ q) = some (j, rest ++ q)) ∧
    (∀ (text : List Char) (l : List Json) (rest : List Char), readItems n text = some (l, rest) →
      readItems n (text ++ q) = some (l, rest ++ q)) ∧
    (∀ (text : List Char) (l : List (String × Json)) (rest : List Char), readFields n text = some (l, rest) →
      readFields n (text ++ q) = some (l, rest ++ q)) := by
  induction n with
  | zero => exact ⟨by intros; simp_all [readValue], by intros; simp_all [readItems], by intros; simp_all [readFields]⟩
  | succ n ih =>
    obtain ⟨ihv, ihi, ihf⟩ := ih
    refine ⟨?_, ?_, ?_⟩
    · intro text j rest h he
      rw [readValue.eq_def] at h
      dsimp only at h
      split at h
      · simp only [Option.some.injEq, Prod.mk.injEq] at h; obtain ⟨rfl, rfl⟩ := h; simp [readValue]
      · simp only [Option.some.injEq, Prod.mk.injEq] at h; obtain ⟨rfl, rfl⟩ := h; simp [readValue]
      · simp only [Option.map_eq_some_iff] at h
        obtain ⟨⟨s, r⟩, hs, h⟩ := h
        simp only [Prod.mk.injEq] at h; obtain ⟨rfl, rfl⟩ := h
        simp [readValue, readChars_extend q _ hs]
      · simp only [Option.some.injEq, Prod.mk.injEq] at h; obtain ⟨rfl, rfl⟩ := h; simp [readValue]
      · rename_i r hne
        simp only [Option.map_eq_some_iff] at h
        obtain ⟨⟨s, r'⟩, hs, h⟩ := h
        simp only [Prod.mk.injEq] at h; obtain ⟨rfl, rfl⟩ := h
        rw [List.cons_append, readValue]
        · rw [ihi _ _ _ hs]; rfl
        · intro x hx
          cases r with
          | nil =>
            cases n with
            | zero => simp [readItems] at hs
            | succ n => cases n <;> simp [readItems, readValue, readNat] at hs
          | cons c r => simp at hx; simp_all
      · simp only [Option.some.injEq, Prod.mk.injEq] at h; obtain ⟨rfl, rfl⟩ := h; simp [readValue]
      · rename_i r hne
        simp only [Option.map_eq_some_iff] at h
        obtain ⟨⟨s, r'⟩, hs, h⟩ := h
        simp only [Prod.mk.injEq] at h; obtain ⟨rfl, rfl⟩ := h
        rw [List.cons_append, readValue]
        · rw [ihf _ _ _ hs]; rfl
        · intro x hx
          cases r with
          | nil =>
            cases n with
            | zero => simp [readFields] at hs
            | succ n => simp [readFields] at hs
          | cons c r => simp at hx; simp_all
      · simp only [Option.map_eq_some_iff] at h
        obtain ⟨⟨k, r⟩, hs, h⟩ := h
        simp only [Prod.mk.injEq] at h; obtain ⟨rfl, rfl⟩ := h
        have hr : r ≠ [] := he.resolve_right fun h => h _ rfl
        simp [readValue, readNat_extend q _ hs hr]
      · rename_i h1 h2 h3 h4 h5 h6 h7 h8
        simp only [Option.map_eq_some_iff] at h
        obtain ⟨⟨k, r⟩, hs, h⟩ := h
        simp only [Prod.mk.injEq] at h; obtain ⟨rfl, rfl⟩ := h
        have hr : r ≠ [] := he.resolve_right fun h => h _ rfl
        have hx := readNat_extend q _ hs hr
        cases text with
        | nil => simp [readNat] at hs
        | cons c text =>
          rw [List.cons_append] at hx ⊢
          have hd : ∃ d, digitVal c = some d := by
            simp only [readNat, Option.map_eq_some_iff] at hs
            obtain ⟨d, hd, -⟩ := hs
            exact ⟨d, hd⟩
          have hc : ∀ x, digitVal x = none → c ≠ x := by rintro x hx rfl; rw [hx] at hd; simp at hd
          rw [readValue]
          · rw [hx]; rfl
          all_goals (intro r e; refine hc _ ?_ (List.cons.inj e).1; decide)
    · intro text l rest h
      rw [readItems] at h ⊢
      simp only [Option.bind_eq_bind, Option.bind_eq_some_iff] at h
      obtain ⟨⟨x, r⟩, hv, h⟩ := h
      have hr : r ≠ [] := by rintro rfl; simp at h
      rw [ihv _ _ _ hv (.inl hr)]
      simp only [Option.bind_eq_bind, Option.bind_some]
      dsimp only at h
      split at h
      · simp only [Option.some.injEq, Prod.mk.injEq] at h; obtain ⟨rfl, rfl⟩ := h; rfl
      · simp only [Option.map_eq_some_iff] at h
        obtain ⟨⟨s, r'⟩, hs, h⟩ := h
        simp only [Prod.mk.injEq] at h; obtain ⟨rfl, rfl⟩ := h
        simp [ihi _ _ _ hs]
      · simp at h
    · intro text l rest h
      rw [readFields.eq_def] at h
      dsimp only at h
      split at h
      · rename_i t
        rw [List.cons_append, readFields]
        simp only [Option.bind_eq_bind, Option.bind_eq_some_iff] at h
        obtain ⟨⟨k, r⟩, hk, h⟩ := h
        rw [readChars_extend q _ hk]
        simp only [Option.bind_eq_bind, Option.bind_some]
        dsimp only at h
        split at h
        · simp only [Option.bind_eq_some_iff] at h
          obtain ⟨⟨x, r⟩, hv, h⟩ := h
          have hr : r ≠ [] := by rintro rfl; simp at h
          simp only [List.cons_append]
          rw [ihv _ _ _ hv (.inl hr)]
          simp only [Option.bind_some]
          dsimp only at h
          split at h
          · simp only [Option.some.injEq, Prod.mk.injEq] at h; obtain ⟨rfl, rfl⟩ := h; rfl
          · simp only [Option.map_eq_some_iff] at h
            obtain ⟨⟨s, r'⟩, hs, h⟩ := h
            simp only [Prod.mk.injEq] at h; obtain ⟨rfl, rfl⟩ := h
            simp [ihf _ _ _ hs]
          · simp at h
        · simp at h
      · simp at h

theorem read_more (n : Nat) :
    (∀ (text : List Char) (r : Json × List Char), readValue n text = some r → readValue (n + 1) text = some r) ∧
    (∀ (text : List Char) (r : List Json × List Char), readItems n text = some r → readItems (n + 1) text = some r) ∧
    (∀ (text : List Char) (r : List (String × Json) × List Char), readFields n text = some r → readFields (n + 1) text = some r) := by
  induction n with
  | zero => exact ⟨by intros; simp_all [readValue], by intros; simp_all [readItems], by intros; simp_all [readFields]⟩
  | succ n ih =>
    obtain ⟨ihv, ihi, ihf⟩ := ih
    refine ⟨?_, ?_, ?_⟩
    · intro text r h
      rw [readValue.eq_def] at h
      dsimp only at h
      split at h
      · rw [readValue]; exact h
      · rw [readValue]; exact h
      · rw [readValue]; exact h
      · rw [readValue]; exact h
      · rename_i hne
        rw [readValue]
        · simp only [Option.map_eq_some_iff] at h ⊢
          obtain ⟨p, hp, h⟩ := h
          exact ⟨p, ihi _ _ hp, h⟩
        · exact hne
      · rw [readValue]; exact h
      · rename_i hne
        rw [readValue]
        · simp only [Option.map_eq_some_iff] at h ⊢
          obtain ⟨p, hp, h⟩ := h
          exact ⟨p, ihf _ _ hp, h⟩
        · exact hne
      · rw [readValue]; exact h
      · rw [readValue]
        · exact h
        all_goals assumption
    · intro text r h
      rw [readItems] at h
      rw [readItems]
      simp only [Option.bind_eq_bind, Option.bind_eq_some_iff] at h ⊢
      obtain ⟨⟨x, t⟩, hv, h⟩ := h
      refine ⟨(x, t), ihv _ _ hv, ?_⟩
      dsimp only at h ⊢
      split at h
      · exact h
      · simp only [Option.map_eq_some_iff] at h ⊢
        obtain ⟨p, hp, h⟩ := h
        exact ⟨p, ihi _ _ hp, h⟩
      · simp at h
    · intro text r h
      rw [readFields.eq_def] at h
      dsimp only at h
      split at h
      · rw [readFields]
        simp only [Option.bind_eq_bind, Option.bind_eq_some_iff] at h ⊢
        obtain ⟨⟨k, t⟩, hk, h⟩ := h
        refine ⟨(k, t), hk, ?_⟩
        dsimp only at h ⊢
        split at h
        · simp only [Option.bind_eq_some_iff] at h ⊢
          obtain ⟨⟨x, t⟩, hv, h⟩ := h
          refine ⟨(x, t), ihv _ _ hv, ?_⟩
          dsimp only at h ⊢
          split at h
          · exact h
          · simp only [Option.map_eq_some_iff] at h ⊢
            obtain ⟨p, hp, h⟩ := h
            exact ⟨p, ihf _ _ hp, h⟩
          · simp at h
        · simp at h
      · simp at h

theorem readValue_more {n m : Nat} (h : n ≤ m) {text : List Char} {r : Json × List Char} (hr : readValue n text = some r) :
    readValue m text = some r := by
  induction h with
  | refl => exact hr
  | step _ ih => exact (read_more _).1 _ _ ih

/-- An object cut off anywhere is not a JSON text. -/
theorem readJson_truncated {p q : List Char} {fields : List (String × Json)} (h : readJson (p ++ q) = some (.obj fields))
    (j : Json) (hp : readJson p = some j) : q = [] := by
  unfold readJson at h hp
  split at h
  · rename_i j1 h1
    split at hp
    · rename_i j2 h2
      simp only [Option.some.injEq] at h hp
      subst h hp
      have hn : ∀ i, j2 ≠ .num i := by
        rintro i rfl
        cases p with
        | nil => simp [readValue, readNat] at h2
        | cons c p =>
          -- the text begins with a brace
          have hc : c = '{' := by
            rw [List.cons_append, readValue.eq_def] at h1
            dsimp only at h1
            split at h1 <;> simp_all
          subst hc
          rw [readValue.eq_def] at h2
          dsimp only at h2
          split at h2 <;> simp_all
      have e := (read_extend q _).1 _ _ _ h2 (.inr hn)
      have e' := readValue_more (m := (p ++ q).length + 1) (by simp) e
      rw [h1] at e'
      simp only [Option.some.injEq, Prod.mk.injEq, List.nil_append] at e'
      exact e'.2.symm
    · simp at hp
  · simp at h

/-! ### Bytes -/

theorem utf8_prefix {l m : List Char} {b : List UInt8}
    (h : l.flatMap String.utf8EncodeChar ++ b = m.flatMap String.utf8EncodeChar) : l <+: m := by
  apply List.isPrefix_of_utf8Encode_append_eq_utf8Encode b.toByteArray
  unfold List.utf8Encode
  rw [← List.toByteArray_append, h]

theorem utf8_injective {l m : List Char} (h : l.flatMap String.utf8EncodeChar = m.flatMap String.utf8EncodeChar) : l = m :=
  (utf8_prefix (b := []) (by simpa using h)).eq_of_length_le
    (utf8_prefix (b := []) (by simpa using h.symm)).length_le

/-! ### iCalendar -/

theorem readEvents_more (ls more : List (String × String)) (hm : more ≠ []) (st : Option (List (String × String)))
    {es : List (List (String × String))} (h : readEvents st ls = some es) : readEvents st (ls ++ more) = none := by
  induction ls generalizing st es with
  | nil => cases st <;> simp [readEvents] at h
  | cons l ls ih =>
    rw [List.cons_append]
    cases st with
    | none =>
      rw [readEvents] at h ⊢
      split at h
      · rename_i h1; rw [if_pos h1]; exact ih _ h
      · rename_i h1
        rw [if_neg h1]
        rw [if_neg]
        rintro ⟨-, he⟩
        simp [hm] at he
    | some props =>
      rw [readEvents] at h ⊢
      split at h
      · rename_i h1
        rw [if_pos h1]
        simp only [Option.map_eq_some_iff] at h
        obtain ⟨es', h, -⟩ := h
        rw [ih _ h]; rfl
      · rename_i h1
        rw [if_neg h1]
        split at h
        · simp at h
        · rename_i h2; rw [if_neg h2]; exact ih _ h

/-- The lines of a calendar cannot be continued. -/
theorem readCalendar_more (ls more : List (String × String)) (hm : more ≠ []) {c : Calendar} (h : readCalendar ls = some c) :
    readCalendar (ls ++ more) = none := by
  cases ls with
  | nil => simp [readCalendar] at h
  | cons l ls =>
    rw [List.cons_append]
    rw [readCalendar] at h ⊢
    split at h
    · rename_i h1
      rw [if_pos h1]
      dsimp only at h ⊢
      simp only [Option.map_eq_some_iff, Option.map_eq_none_iff] at h ⊢
      obtain ⟨es, h, -⟩ := h
      rw [List.dropWhile_append]
      split
      · rename_i h0
        rw [List.isEmpty_iff] at h0
        rw [h0] at h
        simp [readEvents] at h
      · exact readEvents_more _ _ hm _ h
    · simp at h

/-- A line cut off is no line. -/
theorem readLines_cut {l : List Char} (h : ∀ c ∈ l, c ≠ '\r' ∧ c ≠ '\n') (p : List Char) (hp : p <+: l ++ ['\r', '\n'])
    (hne : p ≠ []) (hlt : p ≠ l ++ ['\r', '\n']) : readLines p = none := by
  induction l generalizing p with
  | nil =>
    rw [List.nil_append] at hp hlt
    match p, hne with
    | [a], _ =>
      obtain ⟨r, hr⟩ := hp
      simp only [List.cons_append, List.nil_append, List.cons.injEq] at hr
      rw [hr.1]
      simp [readLines]
    | [a, b], _ =>
      obtain ⟨r, hr⟩ := hp
      simp only [List.cons_append, List.nil_append, List.cons.injEq] at hr
      rw [hr.1, hr.2.1] at hlt
      exact absurd rfl hlt
    | a :: b :: c :: p, _ =>
      have := hp.length_le
      simp at this
  | cons x l ih =>
    cases p with
    | nil => exact absurd rfl hne
    | cons c p =>
      rw [List.cons_append, List.cons_prefix_cons] at hp
      obtain ⟨rfl, hp⟩ := hp
      have hc := h c (by simp)
      have : readLines p = none ∨ p = [] := by
        by_cases hp0 : p = []
        · exact .inr hp0
        · exact .inl (ih (fun y hy => h y (by simp [hy])) p hp hp0 (by rintro rfl; exact hlt rfl))
      rw [readLines, if_neg (by rintro (k | k); exacts [hc.1 k, hc.2 k])]
      · rcases this with e | rfl
        · rw [e]
        · simp [readLines]
      all_goals intros; exact hc.1 ‹_›

end Verif.Lemmas
