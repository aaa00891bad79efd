import Verif.Spec.Fetching
import Verif.Props.Path
import Verif.Lemmas.Json
import Verif.Model.AstroData
/-
C79: the script that fetched the astronomical data.
-/
set_option autoImplicit false

namespace Verif.Props.GetAstro
open Verif.Model.GetAstro Verif.Spec.Fetching

theorem fetches_append (a b : List Event) : fetches (a ++ b) = fetches a ++ fetches b := by
  induction a with
  | nil => rfl
  | cons e a ih => cases e <;> simp [fetches, ih]

/-! ### The rate -/

/-- What holds at every step. -/
def Inv (s : State) : Prop :=
  s.reqPerMin ≤ 11 ∧ (s.pos = .fetching → s.reqPerMin ≤ 10) ∧ (∀ d, s.pos = .waiting d → s.reqPerMin = 11)

theorem inv_start (a : Args) (date : Nat → Int) : Inv (start a date) :=
  ⟨Nat.zero_le _, fun h => (by cases h), fun _ h => (by cases h)⟩

/-- The steps, one by one. -/
inductive Step (a : Args) (date : Nat → Int) (s : State) : List Event → State → Prop
  | go (h1 : s.pos = .top) (h2 : s.reqPerMin ≤ 10) : Step a date s [.print (s.year ++ " ... ")] { s with pos := .fetching }
  | pause (h1 : s.pos = .top) (h2 : 10 < s.reqPerMin) : Step a date s [.print (s.year ++ " ... "), .clock (date s.calls)]
      { s with pos := .waiting (date s.calls - s.lastBatchStart), calls := s.calls + 1 }
  | wait (d : Int) (h1 : s.pos = .waiting d) (h2 : d < 61) : Step a date s
      [.print ("\r" ++ s.year ++ " ... wait: " ++ toString (60 - d) ++ " "), .sleep, .clock (date s.calls)]
      { s with pos := .waiting (date s.calls - s.lastBatchStart), calls := s.calls + 1 }
  | batch (d : Int) (h1 : s.pos = .waiting d) (h2 : 61 ≤ d) : Step a date s [.clock (date s.calls)]
      { s with pos := .fetching, lastBatchStart := date s.calls, reqPerMin := 0, calls := s.calls + 1 }
  | fetch (h1 : s.pos = .fetching) : Step a date s [.fetch (url a s.year) (file s.year), .print "OK\n"]
      { s with pos := .top, year := nextYear s.year, reqPerMin := s.reqPerMin + 1 }

theorem step_cases {a : Args} {date : Nat → Int} {s s' : State} {es : List Event} (h : step a date s = some (es, s')) :
    Step a date s es s' := by
  unfold step at h
  cases hp : s.pos with
  | top =>
    rw [hp] at h
    simp only at h
    split at h
    · split at h
      · split at h
        · cases h; exact .pause hp (by omega)
        · cases h; exact .go hp (by omega)
      · cases h
    · cases h
  | waiting d =>
    rw [hp] at h
    simp only at h
    split at h
    · cases h; exact .wait d hp (by omega)
    · cases h; exact .batch d hp (by omega)
  | fetching =>
    rw [hp] at h
    simp only at h
    cases h; exact .fetch hp

theorem inv_step {a : Args} {date : Nat → Int} {s s' : State} {es : List Event} (hi : Inv s) (h : Step a date s es s') : Inv s' := by
  obtain ⟨i1, i2, i3⟩ := hi
  cases h with
  | go h1 h2 => exact ⟨i1, fun _ => h2, fun _ h => (by cases h)⟩
  | pause h1 h2 => exact ⟨i1, fun h => (by cases h), fun _ _ => by show s.reqPerMin = 11; omega⟩
  | wait d h1 h2 => exact ⟨i1, fun h => (by cases h), fun _ _ => i3 d h1⟩
  | batch d h1 h2 => exact ⟨Nat.zero_le _, fun _ => Nat.zero_le _, fun _ h => (by cases h)⟩
  | fetch h1 =>
    have := i2 h1
    exact ⟨by show s.reqPerMin + 1 ≤ 11; omega, fun h => (by cases h), fun _ h => (by cases h)⟩

theorem steps_succ {a : Args} {date : Nat → Int} {n : Nat} {s s' : State} {es : List Event} (h : step a date s = some (es, s')) :
    steps a date (n + 1) s = (es ++ (steps a date n s').1, (steps a date n s').2) := by
  rw [steps, h]

theorem steps_none {a : Args} {date : Nat → Int} {n : Nat} {s : State} (h : step a date s = none) : steps a date (n + 1) s = ([], none) := by
  rw [steps, h]

/-- Among events with more fetches than the batch has left, the clock was read 61 seconds after the start of the batch. -/
theorem one_batch {a : Args} {date : Nat → Int} : ∀ (n : Nat) (s : State), Inv s → ∀ (B C : List Event) (u f : String),
    (steps a date n s).1 = B ++ .fetch u f :: C → 11 ≤ (fetches B).length + s.reqPerMin →
    (∃ w, s.lastBatchStart + 61 ≤ w ∧ .clock w ∈ B) ∨ ∃ d, s.pos = .waiting d ∧ 61 ≤ d := by
  intro n
  induction n with
  | zero => intro s _ B C u f h; exact absurd h (by simp [steps])
  | succ n ih =>
    intro s hi B C u f h hc
    cases hst : step a date s with
    | none => rw [steps_none hst] at h; exact absurd h (by simp)
    | some r =>
      obtain ⟨es, s'⟩ := r
      rw [steps_succ hst] at h
      have hs := step_cases hst
      have hi' := inv_step hi hs
      cases hs with
      | go h1 h2 =>
        cases B with
        | nil => simp at h
        | cons e B =>
          simp only [List.cons_append, List.nil_append, List.cons.injEq] at h
          obtain ⟨rfl, h⟩ := h
          rcases ih _ hi' B C u f h (by simpa [fetches] using hc) with ⟨w, hw, hm⟩ | ⟨d, hd, -⟩
          · exact .inl ⟨w, hw, List.mem_cons_of_mem _ hm⟩
          · cases hd
      | pause h1 h2 =>
        rcases B with _ | ⟨e, _ | ⟨e', B⟩⟩
        · simp at h
        · simp at h
        · simp only [List.cons_append, List.nil_append, List.cons.injEq] at h
          obtain ⟨rfl, rfl, h⟩ := h
          rcases ih _ hi' B C u f h (by simpa [fetches] using hc) with ⟨w, hw, hm⟩ | ⟨d, hd, h61⟩
          · exact .inl ⟨w, hw, List.mem_cons_of_mem _ (List.mem_cons_of_mem _ hm)⟩
          · simp only [At.waiting.injEq] at hd
            exact .inl ⟨date s.calls, by omega, by simp⟩
      | wait d h1 h2 =>
        rcases B with _ | ⟨e, _ | ⟨e', _ | ⟨e'', B⟩⟩⟩
        · simp at h
        · simp at h
        · simp at h
        · simp only [List.cons_append, List.nil_append, List.cons.injEq] at h
          obtain ⟨rfl, rfl, rfl, h⟩ := h
          rcases ih _ hi' B C u f h (by simpa [fetches] using hc) with ⟨w, hw, hm⟩ | ⟨d, hd, h61⟩
          · exact .inl ⟨w, hw, by simp [hm]⟩
          · simp only [At.waiting.injEq] at hd
            exact .inl ⟨date s.calls, by omega, by simp⟩
      | batch d h1 h2 => exact .inr ⟨d, h1, h2⟩
      | fetch h1 =>
        have := hi.2.1 h1
        rcases B with _ | ⟨e, _ | ⟨e', B⟩⟩
        · simp [fetches] at hc; omega
        · simp at h
        · simp only [List.cons_append, List.nil_append, List.cons.injEq] at h
          obtain ⟨rfl, rfl, h⟩ := h
          rcases ih _ hi' B C u f h (by simp only [fetches, List.length_cons] at hc ⊢; omega) with ⟨w, hw, hm⟩ | ⟨d, hd, -⟩
          · exact .inl ⟨w, hw, by simp [hm]⟩
          · cases hd

/-- Among events with 11 more, it was read twice, 61 seconds apart. -/
theorem two_batches {a : Args} {date : Nat → Int} : ∀ (n : Nat) (s : State), Inv s → ∀ (B C : List Event) (u f : String),
    (steps a date n s).1 = B ++ .fetch u f :: C → 22 ≤ (fetches B).length + s.reqPerMin →
    ∃ v w, v + 61 ≤ w ∧ [.clock v, .clock w].Sublist B := by
  intro n
  induction n with
  | zero => intro s _ B C u f h; exact absurd h (by simp [steps])
  | succ n ih =>
    intro s hi B C u f h hc
    cases hst : step a date s with
    | none => rw [steps_none hst] at h; exact absurd h (by simp)
    | some r =>
      obtain ⟨es, s'⟩ := r
      rw [steps_succ hst] at h
      have hs := step_cases hst
      have hi' := inv_step hi hs
      cases hs with
      | go h1 h2 =>
        cases B with
        | nil => simp at h
        | cons e B =>
          simp only [List.cons_append, List.nil_append, List.cons.injEq] at h
          obtain ⟨rfl, h⟩ := h
          obtain ⟨v, w, hv, hw⟩ := ih _ hi' B C u f h (by simpa [fetches] using hc)
          exact ⟨v, w, hv, hw.cons _⟩
      | pause h1 h2 =>
        rcases B with _ | ⟨e, _ | ⟨e', B⟩⟩
        · simp at h
        · simp at h
        · simp only [List.cons_append, List.nil_append, List.cons.injEq] at h
          obtain ⟨rfl, rfl, h⟩ := h
          obtain ⟨v, w, hv, hw⟩ := ih _ hi' B C u f h (by simpa [fetches] using hc)
          exact ⟨v, w, hv, (hw.cons _).cons _⟩
      | wait d h1 h2 =>
        rcases B with _ | ⟨e, _ | ⟨e', _ | ⟨e'', B⟩⟩⟩
        · simp at h
        · simp at h
        · simp at h
        · simp only [List.cons_append, List.nil_append, List.cons.injEq] at h
          obtain ⟨rfl, rfl, rfl, h⟩ := h
          obtain ⟨v, w, hv, hw⟩ := ih _ hi' B C u f h (by simpa [fetches] using hc)
          exact ⟨v, w, hv, ((hw.cons _).cons _).cons _⟩
      | batch d h1 h2 =>
        cases B with
        | nil => simp at h
        | cons e B =>
          simp only [List.cons_append, List.nil_append, List.cons.injEq] at h
          obtain ⟨rfl, h⟩ := h
          have := hi.1
          rcases one_batch n _ hi' B C u f h (by simp only [fetches] at hc ⊢; omega) with ⟨w, hw, hm⟩ | ⟨d, hd, -⟩
          · exact ⟨date s.calls, w, hw, (List.singleton_sublist.2 hm).cons_cons _⟩
          · cases hd
      | fetch h1 =>
        have := hi.2.1 h1
        rcases B with _ | ⟨e, _ | ⟨e', B⟩⟩
        · simp [fetches] at hc; omega
        · simp at h
        · simp only [List.cons_append, List.nil_append, List.cons.injEq] at h
          obtain ⟨rfl, rfl, h⟩ := h
          obtain ⟨v, w, hv, hw⟩ := ih _ hi' B C u f h (by simp only [fetches, List.length_cons] at hc ⊢; omega)
          exact ⟨v, w, hv, (hw.cons _).cons _⟩

/-- Between two fetches with 21 others between them the clock was read twice, 61 seconds apart. -/
theorem between {a : Args} {date : Nat → Int} : ∀ (n : Nat) (s : State), Inv s → ∀ (A B C : List Event) (u f u' f' : String),
    (steps a date n s).1 = A ++ .fetch u f :: (B ++ .fetch u' f' :: C) → 21 ≤ (fetches B).length →
    ∃ v w, v + 61 ≤ w ∧ [.clock v, .clock w].Sublist B := by
  intro n
  induction n with
  | zero => intro s _ A B C u f u' f' h; exact absurd h (by simp [steps])
  | succ n ih =>
    intro s hi A B C u f u' f' h hc
    cases hst : step a date s with
    | none => rw [steps_none hst] at h; exact absurd h (by simp)
    | some r =>
      obtain ⟨es, s'⟩ := r
      rw [steps_succ hst] at h
      have hs := step_cases hst
      have hi' := inv_step hi hs
      cases hs with
      | go h1 h2 =>
        cases A with
        | nil => simp at h
        | cons e A =>
          simp only [List.cons_append, List.nil_append, List.cons.injEq] at h
          exact ih _ hi' A B C u f u' f' h.2 hc
      | pause h1 h2 =>
        rcases A with _ | ⟨e, _ | ⟨e', A⟩⟩
        · simp at h
        · simp at h
        · simp only [List.cons_append, List.nil_append, List.cons.injEq] at h
          exact ih _ hi' A B C u f u' f' h.2.2 hc
      | wait d h1 h2 =>
        rcases A with _ | ⟨e, _ | ⟨e', _ | ⟨e'', A⟩⟩⟩
        · simp at h
        · simp at h
        · simp at h
        · simp only [List.cons_append, List.nil_append, List.cons.injEq] at h
          exact ih _ hi' A B C u f u' f' h.2.2.2 hc
      | batch d h1 h2 =>
        cases A with
        | nil => simp at h
        | cons e A =>
          simp only [List.cons_append, List.nil_append, List.cons.injEq] at h
          exact ih _ hi' A B C u f u' f' h.2 hc
      | fetch h1 =>
        rcases A with _ | ⟨e, _ | ⟨e', A⟩⟩
        · simp only [List.cons_append, List.nil_append, List.cons.injEq] at h
          cases B with
          | nil => simp [fetches] at hc
          | cons e B =>
            simp only [List.cons_append, List.cons.injEq] at h
            obtain ⟨-, rfl, h⟩ := h
            obtain ⟨v, w, hv, hw⟩ := two_batches n _ hi' B C u' f' h (by simp only [fetches] at hc ⊢; omega)
            exact ⟨v, w, hv, hw.cons _⟩
        · simp at h
        · simp only [List.cons_append, List.nil_append, List.cons.injEq] at h
          exact ih _ hi' A B C u f u' f' h.2.2 hc

/-- C79: however long the single steps take, and whatever the words and the clock are: from one question to the 22nd after it more than
60 seconds pass. So there are never more than 22 questions in a minute. -/
theorem c79_rate (a : Args) (date : Nat → Int) (n : Nat) (es : List (Event × ℚ)) (he : es.map Prod.fst = (run a date n).1) (ht : Timed es)
    {A B C : List (Event × ℚ)} {u f u' f' : String} {t t' : ℚ} (h : es = A ++ (.fetch u f, t) :: (B ++ (.fetch u' f', t') :: C))
    (hB : 21 ≤ (fetches (B.map Prod.fst)).length) : 60 < t' - t := by
  obtain ⟨hp, hclock⟩ := ht
  have hev : (run a date n).1 = A.map Prod.fst ++ .fetch u f :: (B.map Prod.fst ++ .fetch u' f' :: C.map Prod.fst) := by
    rw [← he, h]; simp
  obtain ⟨v, w, hvw, hsub⟩ : ∃ v w, v + 61 ≤ w ∧ [.clock v, .clock w].Sublist (B.map Prod.fst) := by
    unfold run at hev
    split at hev
    · rcases hA : A.map Prod.fst with _ | ⟨e, A'⟩
      · rw [hA] at hev; simp at hev
      · rw [hA] at hev; simp at hev
    · rcases hA : A.map Prod.fst with _ | ⟨e, A'⟩
      · rw [hA] at hev; simp at hev
      · rw [hA] at hev
        simp only [List.cons_append, List.cons.injEq] at hev
        exact between n _ (inv_start a date) A' _ _ u f u' f' hev.2 hB
  obtain ⟨l, hl, hl'⟩ := List.sublist_map_iff.1 hsub
  rcases l with _ | ⟨⟨e1, t1⟩, _ | ⟨⟨e2, t2⟩, _ | ⟨x, l⟩⟩⟩ <;> simp at hl'
  obtain ⟨rfl, rfl⟩ := hl'
  rw [h, List.pairwise_append, List.pairwise_cons, List.pairwise_append, List.pairwise_cons] at hp
  have m1 : (Event.clock v, t1) ∈ B := hl.subset (by simp)
  have m2 : (Event.clock w, t2) ∈ B := hl.subset (by simp)
  have o1 : t ≤ t1 := hp.2.1.1 _ (List.mem_append_left _ m1)
  have o2 : t2 ≤ t' := hp.2.1.2.2.2 _ m2 _ List.mem_cons_self
  have c1 := hclock v t1 (by rw [h]; simp [m1])
  have c2 := hclock w t2 (by rw [h]; simp [m2])
  have b1 : t1 < v + 1 := by rw [c1]; exact Int.lt_floor_add_one t1
  have b2 : (w : ℚ) ≤ t2 := by rw [c2]; exact Int.floor_le t2
  have b3 : (v : ℚ) + 61 ≤ w := by exact_mod_cast hvw
  linarith

/-! ### Numbers -/

theorem digits_eq {base : Nat} {cs : List Char} (h1 : cs ≠ []) (h2 : ∀ c ∈ cs, c.isDigit = true ∧ c.toNat - 48 < base) :
    digits base cs = some (Nat.ofDigitChars base cs 0) := by
  unfold digits
  rw [if_pos]
  · have hf : ∀ (cs : List Char) (acc : Nat), cs.foldl (fun n c => base * n + (c.toNat - 48)) acc = Nat.ofDigitChars base cs acc := by
      intro cs
      induction cs with
      | nil => intro acc; simp
      | cons c cs ih => intro acc; rw [List.foldl_cons, ih, Nat.ofDigitChars_cons]; rfl
    rw [hf]
  · exact ⟨h1, by
      rw [List.all_eq_true]
      intro c hc
      simp [h2 c hc]⟩

theorem digit_small {c : Char} (h : c.isDigit = true) : c.toNat - 48 < 10 := by
  have : c.toNat ≤ 57 := by
    simp only [Char.isDigit, Bool.and_eq_true, decide_eq_true_eq] at h
    exact UInt32.le_iff_toNat_le.1 h.2
  omega

theorem digits_ten (n : Nat) : digits 10 (Nat.toDigits 10 n) = some n := by
  have hd : ∀ c ∈ Nat.toDigits 10 n, c.isDigit = true := fun c hc => Nat.isDigit_of_mem_toDigits (by omega) (by omega) hc
  rw [digits_eq Nat.toDigits_ne_nil fun c hc => ⟨hd c hc, digit_small (hd c hc)⟩, Nat.ofDigitChars_ten_toDigits]

theorem signed_digits {number : List Char → Option Nat} {cs : List Char} (h : ∀ c ∈ cs, c.isDigit = true) :
    signed number cs = (number cs).map fun n => (n : Int) := by
  unfold signed
  split
  · exact absurd (h '-' (by simp)) (by decide)
  · exact absurd (h '+' (by simp)) (by decide)
  · rfl

theorem nat_text (n : Nat) : (toString n).toList = Nat.toDigits 10 n := by
  have := Lemmas.int_text (n : Int)
  rw [if_pos (by omega)] at this
  exact this

theorem test_nat (n : Nat) : testNumber (toString n) = some (n : Int) := by
  unfold testNumber
  rw [nat_text, signed_digits fun c hc => Nat.isDigit_of_mem_toDigits (by omega) (by omega) hc, digits_ten]
  rfl

theorem no_leading_zero (n : Nat) (cs : List Char) (h : Nat.toDigits 10 n = '0' :: cs) : cs = [] := by
  induction n using Nat.strongRecOn generalizing cs with
  | _ n ih =>
    rcases Nat.lt_or_ge n 10 with hn | hn
    · rw [Nat.toDigits_of_lt_base hn] at h
      simp at h; exact h.2
    · rw [Nat.toDigits_of_base_le (by omega) hn] at h
      rcases hd : Nat.toDigits 10 (n / 10) with _ | ⟨c, ds⟩
      · exact absurd hd Nat.toDigits_ne_nil
      · rw [hd] at h
        simp only [List.cons_append, List.cons.injEq] at h
        obtain ⟨rfl, h⟩ := h
        have := ih (n / 10) (by omega) ds hd
        subst this
        have hv := Nat.ofDigitChars_ten_toDigits (n := n / 10)
        rw [hd] at hv
        have : Nat.ofDigitChars 10 ['0'] 0 = 0 := by decide
        omega

theorem arith_nat (n : Nat) : arithNumber (toString n) = some (n : Int) := by
  unfold arithNumber
  rw [nat_text, signed_digits fun c hc => Nat.isDigit_of_mem_toDigits (by omega) (by omega) hc]
  split
  · rename_i c cs h
    exact absurd (no_leading_zero n _ h) (by simp)
  · rw [digits_ten]; rfl

theorem next_nat (n : Nat) : nextYear (toString n) = toString (n + 1) := by
  unfold nextYear
  rw [arith_nat]
  rfl

/-! ### The questions -/

/-- C79: without its variables and arguments the script prints how it is used, asks nothing, and ends with exit code 1. -/
theorem c79_usage (a : Args) (date : Nat → Int) (n : Nat) :
    ((run a date n).2 = some 1 ↔ a.clientId = "" ∨ a.clientSecret = "" ∨ a.fromYear = "" ∨ a.toYear = "") ∧
    ((run a date n).2 = some 1 → fetches (run a date n).1 = []) := by
  unfold run
  split
  · rename_i h
    exact ⟨⟨fun _ => h, fun _ => rfl⟩, fun _ => rfl⟩
  · rename_i h
    have : ∀ r : Option State, (match r with | none => some (0 : Int) | some _ => none) ≠ some 1 := by intro r; cases r <;> simp
    exact ⟨⟨fun h' => absurd h' (this _), fun h' => absurd h' h⟩, fun h' => absurd h' (this _)⟩

/-- Years as the script counts them. -/
theorem step_top {a : Args} {date : Nat → Int} {s : State} {y t : Nat} (ht : a.toYear = toString t) (hp : s.pos = .top)
    (hy : s.year = toString y) : step a date s = none ↔ t < y := by
  unfold step
  rw [hp]
  simp only [hy, ht, test_nat]
  split
  · rename_i h
    constructor
    · intro h'; split at h' <;> cases h'
    · intro h'; omega
  · rename_i h
    simp only [true_iff]; omega

theorem asked {a : Args} {date : Nat → Int} {t : Nat} (ht : a.toYear = toString t) : ∀ (n : Nat) (s : State) (y : Nat), s.year = toString y →
    (s.pos ≠ .top → y ≤ t) → ∃ rest, (List.range' y (t + 1 - y)).map (fun z => (url a (toString z), file (toString z))) =
      fetches (steps a date n s).1 ++ rest ∧ ((steps a date n s).2 = none → rest = []) := by
  intro n
  induction n with
  | zero => intro s y hy hs; exact ⟨_, rfl, fun h => (by cases h)⟩
  | succ n ih =>
    intro s y hy hs
    cases hst : step a date s with
    | none =>
      rw [steps_none hst]
      refine ⟨_, rfl, fun _ => ?_⟩
      cases hp : s.pos with
      | top =>
        have := (step_top ht hp hy).1 hst
        rw [show t + 1 - y = 0 by omega]; rfl
      | waiting d => unfold step at hst; rw [hp] at hst; simp only at hst; split at hst <;> cases hst
      | fetching => unfold step at hst; rw [hp] at hst; cases hst
    | some r =>
      obtain ⟨es, s'⟩ := r
      rw [steps_succ hst]
      have hle : y ≤ t := by
        by_cases hp : s.pos = .top
        · have := (step_top ht hp hy).not.1 (by rw [hst]; simp)
          omega
        · exact hs hp
      have hs' := step_cases hst
      have plain : ∀ (es : List Event) (s' : State), fetches es = [] → s'.year = s.year → ∃ rest,
          (List.range' y (t + 1 - y)).map (fun z => (url a (toString z), file (toString z))) = fetches (es ++ (steps a date n s').1) ++ rest ∧
          ((steps a date n s').2 = none → rest = []) := by
        intro es s' he hy'
        obtain ⟨rest, h1, h2⟩ := ih s' y (hy'.trans hy) fun _ => hle
        exact ⟨rest, by rw [fetches_append, he, List.nil_append]; exact h1, h2⟩
      cases hs' with
      | go h1 h2 => exact plain _ _ rfl rfl
      | pause h1 h2 => exact plain _ _ rfl rfl
      | wait d h1 h2 => exact plain _ _ rfl rfl
      | batch d h1 h2 => exact plain _ _ rfl rfl
      | fetch h1 =>
        obtain ⟨rest, h1, h2⟩ := ih { s with pos := .top, year := nextYear s.year, reqPerMin := s.reqPerMin + 1 } (y + 1)
          (by show nextYear s.year = _; rw [hy, next_nat]) fun h => absurd rfl h
        refine ⟨rest, ?_, h2⟩
        rw [show t + 1 - y = (t + 1 - (y + 1)) + 1 by omega, List.range'_succ, List.map_cons, h1, ← hy]
        rfl

theorem run_full {a : Args} (hid : a.clientId ≠ "") (hsec : a.clientSecret ≠ "") (hf : a.fromYear ≠ "") (ht : a.toYear ≠ "")
    (date : Nat → Int) (n : Nat) : run a date n = (.clock (date 0) :: (steps a date n (start a date)).1,
      match (steps a date n (start a date)).2 with | none => some 0 | some _ => none) := by
  unfold run
  rw [if_neg (by simp [hid, hsec, hf, ht])]
  rfl

theorem nat_nonempty (n : Nat) : toString n ≠ "" := by
  rw [ne_eq, ← String.toList_inj, nat_text]
  exact Nat.toDigits_ne_nil

section
variable {a : Args} (hid : a.clientId ≠ "") (hsec : a.clientSecret ≠ "") {f t : Nat} (hf : a.fromYear = toString f)
  (ht : a.toYear = toString t) (date : Nat → Int)
include hid hsec hf ht

/-- C79: for two years written as numbers the script asks about each year from the first to the last once, in order; stopped early,
about the first ones of them. -/
theorem c79_questions (n : Nat) : ∃ rest, (List.range' f (t + 1 - f)).map (fun y => wanted a.clientId a.clientSecret (toString y)) =
      fetches (run a date n).1 ++ rest ∧ ((run a date n).2 = some 0 → rest = []) := by
  rw [run_full hid hsec (hf ▸ nat_nonempty f) (ht ▸ nat_nonempty t)]
  obtain ⟨rest, h1, h2⟩ := asked (date := date) ht n (start a date) f hf fun h => absurd rfl h
  refine ⟨rest, ?_, ?_⟩
  · rw [show fetches (Event.clock (date 0) :: (steps a date n (start a date)).1) = fetches (steps a date n (start a date)).1 from rfl, ← h1]
    apply List.map_congr_left
    intro y _
    unfold wanted url file
    simp only [String.append_assoc]
    rfl
  · intro h
    apply h2
    cases hr : (steps a date n (start a date)).2 with
    | none => rfl
    | some s => rw [hr] at h; cases h

end

/-! ### The end -/

/-- The script ends. -/
def Ends (a : Args) (date : Nat → Int) (s : State) : Prop := ∃ n, (steps a date n s).2 = none

theorem ends_step {a : Args} {date : Nat → Int} {s s' : State} {es : List Event} (h : step a date s = some (es, s')) (he : Ends a date s') :
    Ends a date s := by
  obtain ⟨n, hn⟩ := he
  exact ⟨n + 1, by rw [steps_succ h]; exact hn⟩

/-- Waiting comes to an end, with the same year. -/
theorem ends_waiting {a : Args} {date : Nat → Int} (hc : GoesOn date)
    (P : State → Prop) (hP : ∀ s es s', step a date s = some (es, s') → P s' → P s) {year : String}
    (hgo : ∀ s : State, s.pos = .fetching → s.year = year → P s) : ∀ (s : State) (d : Int), s.pos = .waiting d → s.year = year → P s := by
  intro s d hp hy
  obtain ⟨k, hk⟩ := hc (s.lastBatchStart + 61)
  suffices key : ∀ (j : Nat) (s' : State) (d : Int), s'.pos = .waiting d → s'.year = year → s'.lastBatchStart = s.lastBatchStart →
      k ≤ s'.calls + j → P s' from key k s d hp hy rfl (by omega)
  have over : ∀ (s' : State) (d : Int), s'.pos = .waiting d → s'.year = year → 61 ≤ d → P s' := by
    intro s' d hp' hy' hd
    refine hP s' [.clock (date s'.calls)]
      { s' with pos := .fetching, lastBatchStart := date s'.calls, reqPerMin := 0, calls := s'.calls + 1 } ?_ (hgo _ rfl hy')
    unfold step; rw [hp']; simp only; rw [if_neg (by omega)]
  intro j
  induction j with
  | zero =>
    intro s' d hp' hy' hl hk'
    rcases Int.lt_or_le d 61 with hd | hd
    · refine hP s' [.print ("\r" ++ s'.year ++ " ... wait: " ++ toString (60 - d) ++ " "), .sleep, .clock (date s'.calls)]
        { s' with pos := .waiting (date s'.calls - s'.lastBatchStart), calls := s'.calls + 1 } ?_ ?_
      · unfold step; rw [hp']; simp only; rw [if_pos hd]
      · refine over _ _ rfl hy' ?_
        have := hk s'.calls (by omega)
        omega
    · exact over s' d hp' hy' hd
  | succ j ih =>
    intro s' d hp' hy' hl hk'
    rcases Int.lt_or_le d 61 with hd | hd
    · refine hP s' [.print ("\r" ++ s'.year ++ " ... wait: " ++ toString (60 - d) ++ " "), .sleep, .clock (date s'.calls)]
        { s' with pos := .waiting (date s'.calls - s'.lastBatchStart), calls := s'.calls + 1 } ?_ ?_
      · unfold step; rw [hp']; simp only; rw [if_pos hd]
      · exact ih { s' with pos := .waiting (date s'.calls - s'.lastBatchStart), calls := s'.calls + 1 } _ rfl hy' hl
          (by show k ≤ s'.calls + 1 + j; omega)
    · exact over s' d hp' hy' hd

/-- From the top to fetching. -/
theorem top_fetching {a : Args} {date : Nat → Int} (hc : GoesOn date)
    (P : State → Prop) (hP : ∀ s es s', step a date s = some (es, s') → P s' → P s) {year : String}
    (hgo : ∀ s : State, s.pos = .fetching → s.year = year → P s) {y t : Int} (h1 : testNumber year = some y) (h2 : testNumber a.toYear = some t)
    (hle : y ≤ t) (s : State) (hp : s.pos = .top) (hy : s.year = year) : P s := by
  by_cases hr : s.reqPerMin > 10
  · refine hP s [.print (s.year ++ " ... "), .clock (date s.calls)]
      { s with pos := .waiting (date s.calls - s.lastBatchStart), calls := s.calls + 1 } ?_ ?_
    · unfold step; rw [hp]; simp only [hy, h1, h2, if_pos hle, if_pos hr]
    · exact ends_waiting hc P hP hgo _ _ rfl hy
  · refine hP s [.print (s.year ++ " ... ")] { s with pos := .fetching } ?_ (hgo _ rfl hy)
    unfold step; rw [hp]; simp only [hy, h1, h2, if_pos hle, if_neg hr]

theorem step_fetching (a : Args) (date : Nat → Int) {s : State} (h : s.pos = .fetching) : step a date s =
    some ([.fetch (url a s.year) (file s.year), .print "OK\n"], { s with pos := .top, year := nextYear s.year, reqPerMin := s.reqPerMin + 1 }) := by
  unfold step; rw [h]

theorem ends_top {a : Args} {date : Nat → Int} (hc : GoesOn date) {t : Nat} (ht : a.toYear = toString t) : ∀ (j : Nat) (s : State) (y : Nat),
    s.pos = .top → s.year = toString y → t + 1 - y ≤ j → Ends a date s := by
  intro j
  induction j with
  | zero =>
    intro s y hp hy hj
    refine ⟨1, ?_⟩
    rw [steps_none ((step_top ht hp hy).2 (by omega))]
  | succ j ih =>
    intro s y hp hy hj
    rcases Nat.lt_or_ge t y with h | h
    · exact ⟨1, by rw [steps_none ((step_top ht hp hy).2 h)]⟩
    · refine top_fetching hc (Ends a date) (fun _ _ _ => ends_step) ?_ (test_nat y) (ht ▸ test_nat t) (by omega) s hp hy
      intro s' hp' hy'
      refine ends_step (step_fetching a date hp') (ih _ (y + 1) rfl ?_ (by omega))
      show nextYear s'.year = _
      rw [hy', next_nat]

/-- C79: if the clock goes on, the script ends with exit code 0, whatever `curl` did. -/
theorem c79_ends {a : Args} (hid : a.clientId ≠ "") (hsec : a.clientSecret ≠ "") {f t : Nat} (hf : a.fromYear = toString f)
    (ht : a.toYear = toString t) {date : Nat → Int} (hc : GoesOn date) : ∃ n, (run a date n).2 = some 0 := by
  obtain ⟨n, hn⟩ := ends_top hc ht _ (start a date) f rfl hf (Nat.le_refl _)
  refine ⟨n, ?_⟩
  rw [run_full hid hsec (hf ▸ nat_nonempty f) (ht ▸ nat_nonempty t)]
  simp only [hn]

/-- A list with enough fetches can be split at one of them. -/
theorem split_fetches : ∀ (es : List Event) (k : Nat), k < (fetches es).length →
    ∃ B C u f, es = B ++ .fetch u f :: C ∧ (fetches B).length = k := by
  intro es
  induction es with
  | nil => intro k h; simp [fetches] at h
  | cons e es ih =>
    intro k h
    cases e with
    | fetch u f =>
      cases k with
      | zero => exact ⟨[], es, u, f, rfl, rfl⟩
      | succ k =>
        simp only [fetches, List.length_cons] at h
        obtain ⟨B, C, u', f', rfl, hl⟩ := ih k (by omega)
        exact ⟨.fetch u f :: B, C, u', f', rfl, by simp [fetches, hl]⟩
    | clock w => obtain ⟨B, C, u', f', rfl, hl⟩ := ih k h; exact ⟨.clock w :: B, C, u', f', rfl, hl⟩
    | print w => obtain ⟨B, C, u', f', rfl, hl⟩ := ih k h; exact ⟨.print w :: B, C, u', f', rfl, hl⟩
    | sleep => obtain ⟨B, C, u', f', rfl, hl⟩ := ih k h; exact ⟨.sleep :: B, C, u', f', rfl, hl⟩

theorem clock_dates {a : Args} {date : Nat → Int} : ∀ (n : Nat) (s : State) (w : Int), .clock w ∈ (steps a date n s).1 → ∃ k, w = date k := by
  intro n
  induction n with
  | zero => intro s w h; simp [steps] at h
  | succ n ih =>
    intro s w h
    cases hst : step a date s with
    | none => rw [steps_none hst] at h; simp at h
    | some r =>
      obtain ⟨es, s'⟩ := r
      rw [steps_succ hst, List.mem_append] at h
      rcases h with h | h
      · cases step_cases hst <;> simp at h
        all_goals exact ⟨_, h⟩
      · exact ih s' w h

/-- C79: while the clock has not reached 61 seconds after the start, at most 11 questions have been asked. -/
theorem c79_first_minute (a : Args) (date : Nat → Int) (h : ∀ k, date k < date 0 + 61) (n : Nat) : (fetches (run a date n).1).length ≤ 11 := by
  unfold run
  split
  · simp [fetches]
  · by_contra hlt
    simp only [fetches, Nat.not_le] at hlt
    obtain ⟨B, C, u, f, he, hl⟩ := split_fetches _ 11 hlt
    rcases one_batch n _ (inv_start a date) B C u f he (by rw [hl]; simp [start]) with ⟨w, hw, hm⟩ | ⟨d, hd, -⟩
    · obtain ⟨k, rfl⟩ := clock_dates n (start a date) w (by rw [he]; exact List.mem_append_left _ hm)
      have := h k
      simp only [start] at hw
      omega
    · cases hd

/-! ### Leading zeros -/

/-- C79 (finding): a first year written with a leading zero and a digit 8 or 9, such as 0900, is a decimal number for the test of the loop
but no octal number for the addition: the script asks about that year again and again, without end. -/
theorem c79_leading_zero {a : Args} (hid : a.clientId ≠ "") (hsec : a.clientSecret ≠ "") {m t : Nat} (hf : a.fromYear = "0" ++ toString m)
    (h8 : '8' ∈ (toString m).toList ∨ '9' ∈ (toString m).toList) (ht : a.toYear = toString t) (hle : m ≤ t) (date : Nat → Int) :
    (∀ n, (run a date n).2 = none ∧ ∀ x ∈ fetches (run a date n).1, x = wanted a.clientId a.clientSecret a.fromYear) ∧
    (GoesOn date → ∀ k, ∃ n, k ≤ (fetches (run a date n).1).length) := by
  have hl : a.fromYear.toList = '0' :: Nat.toDigits 10 m := by rw [hf, String.toList_append, nat_text]; rfl
  have hd : ∀ c ∈ Nat.toDigits 10 m, c.isDigit = true := fun c hc => Nat.isDigit_of_mem_toDigits (by omega) (by omega) hc
  have hd0 : ∀ c ∈ '0' :: Nat.toDigits 10 m, c.isDigit = true := by
    intro c hc
    rcases List.mem_cons.1 hc with rfl | hc
    · decide
    · exact hd c hc
  have htest : testNumber a.fromYear = some (m : Int) := by
    unfold testNumber
    rw [hl, signed_digits hd0, digits_eq (by simp) fun c hc => ⟨hd0 c hc, digit_small (hd0 c hc)⟩, Nat.ofDigitChars_cons]
    have := Nat.ofDigitChars_ten_toDigits (n := m)
    simp only [Nat.mul_zero, Nat.zero_add]
    rw [show '0'.toNat - '0'.toNat = 0 by decide, this]
    rfl
  have hbad : arithNumber a.fromYear = none := by
    unfold arithNumber
    rw [hl, signed_digits hd0]
    rcases hm : Nat.toDigits 10 m with _ | ⟨c, cs⟩
    · exact absurd hm Nat.toDigits_ne_nil
    · simp only
      rw [nat_text, hm] at h8
      unfold digits
      rw [if_neg]
      · rfl
      · rintro ⟨-, hall⟩
        rw [List.all_eq_true] at hall
        rcases h8 with h | h
        · exact absurd (hall _ h) (by decide)
        · exact absurd (hall _ h) (by decide)
  have hnext : nextYear a.fromYear = a.fromYear := by unfold nextYear; rw [hbad]
  have hne : a.fromYear ≠ "" := by rw [ne_eq, ← String.toList_inj, hl]; simp
  have hw : (url a a.fromYear, file a.fromYear) = wanted a.clientId a.clientSecret a.fromYear := by
    unfold wanted url file
    simp only [String.append_assoc]
    rfl
  have ht' : testNumber a.toYear = some (t : Int) := ht ▸ test_nat t
  constructor
  · intro n
    rw [run_full hid hsec hne (ht ▸ nat_nonempty t)]
    have key : ∀ (n : Nat) (s : State), s.year = a.fromYear → (steps a date n s).2 ≠ none ∧
        ∀ x ∈ fetches (steps a date n s).1, x = wanted a.clientId a.clientSecret a.fromYear := by
      intro n
      induction n with
      | zero => intro s _; exact ⟨by simp [steps], by simp [steps, fetches]⟩
      | succ n ih =>
        intro s hy
        cases hst : step a date s with
        | none =>
          exfalso
          unfold step at hst
          cases hp : s.pos with
          | top =>
            rw [hp] at hst
            simp only [hy, htest, ht', if_pos (Int.ofNat_le.2 hle)] at hst
            split at hst <;> cases hst
          | waiting d => rw [hp] at hst; simp only at hst; split at hst <;> cases hst
          | fetching => rw [hp] at hst; cases hst
        | some r =>
          obtain ⟨es, s'⟩ := r
          rw [steps_succ hst]
          have hs' := step_cases hst
          have hy' : s'.year = a.fromYear := by
            cases hs' with
            | fetch h1 => show nextYear s.year = _; rw [hy, hnext]
            | _ => exact hy
          refine ⟨(ih s' hy').1, ?_⟩
          intro x hx
          rw [fetches_append, List.mem_append] at hx
          rcases hx with hx | hx
          · cases hs' with
            | fetch h1 => simp only [fetches, List.mem_singleton] at hx; rw [hx, hy, hw]
            | _ => simp [fetches] at hx
          · exact (ih s' hy').2 x hx
    obtain ⟨k1, k2⟩ := key n (start a date) rfl
    refine ⟨?_, k2⟩
    cases hr : (steps a date n (start a date)).2 with
    | none => exact absurd hr k1
    | some s => rfl
  · intro hc k
    suffices hs : ∀ (k : Nat) (s : State), s.pos = .top → s.year = a.fromYear → ∃ n, k ≤ (fetches (steps a date n s).1).length by
      obtain ⟨n, hn⟩ := hs k (start a date) rfl rfl
      refine ⟨n, ?_⟩
      rw [run_full hid hsec hne (ht ▸ nat_nonempty t)]
      exact hn
    intro k
    induction k with
    | zero => intro s _ _; exact ⟨0, Nat.zero_le _⟩
    | succ k ih =>
      have more : ∀ s es s', step a date s = some (es, s') → (∃ n, k + 1 ≤ (fetches (steps a date n s').1).length) →
          ∃ n, k + 1 ≤ (fetches (steps a date n s).1).length := by
        rintro s es s' h ⟨n, hn⟩
        exact ⟨n + 1, by rw [steps_succ h, fetches_append, List.length_append]; omega⟩
      intro s hp hy
      refine top_fetching hc (fun s => ∃ n, k + 1 ≤ (fetches (steps a date n s).1).length) more ?_ htest ht' (by omega) s hp hy
      intro s' hp' hy'
      obtain ⟨n, hn⟩ := ih { s' with pos := .top, year := nextYear s'.year, reqPerMin := s'.reqPerMin + 1 } rfl
        (by show nextYear s'.year = _; rw [hy', hnext])
      exact ⟨n + 1, by rw [steps_succ (step_fetching a date hp'), fetches_append, List.length_append]; simp only [fetches, List.length_cons]; omega⟩

/-! ### The data -/

/-- C79: the files of the script, in the directory data/astro, are those that `GetAstroMoons` looks for. -/
theorem c79_names (clientId clientSecret : String) (y : Int) :
    Verif.Model.astroPath y = "/data/astro/".toList ++ (wanted clientId clientSecret (toString y)).2.toList := by
  rw [(c59_path y).1]
  unfold wanted
  simp only [String.toList_append]
  rfl

/-- C79: no embedded answer comes near the limit of 250 records: none has more than 50, against the "~208" of the comment. -/
theorem c79_limit : ∀ e ∈ Verif.Model.embeddedTable, (e.2.getD []).length ≤ 50 := by decide +kernel

/-! ### Concrete cases -/

/-- A run from 1900 on. -/
def sample (toYear : String) : Args := ⟨"id", "secret", "1900", toYear⟩

/-- C79 (finding): the limit is tested with `-gt 10`, so 11 questions can be asked in the same second, against the ten a minute of the
comment. -/
theorem c79_eleven : (fetches (run (sample "2040") (fun _ => 0) 100).1).length = 11 := by decide +kernel

/-- Readings of a clock: the second batch begins after 61 seconds. -/
def readings : Nat → Int
  | 0 => 0
  | _ => 61

/-- Times for that run: the first batch comes late. -/
def times : List ℚ := 0 :: List.replicate 33 (121/2) ++ List.replicate 35 61

theorem timed_of {es : List (Event × ℚ)} (h1 : es.Pairwise fun a b => a.2 ≤ b.2)
    (h2 : ∀ p ∈ es, (match p.1 with | .clock s => s == ⌊p.2⌋ | _ => true) = true) : Timed es :=
  ⟨h1, fun s t h => by simpa using h2 _ h⟩

/-- C79 (finding): the waiting only counts from the start of a batch, so the 22 questions of two batches can come within half a second;
`c79_rate` says that there can be no more. -/
theorem c79_burst : ∃ es, es.map Prod.fst = (run (sample "1921") readings 50).1 ∧ Timed es ∧ (run (sample "1921") readings 50).2 = some 0 ∧
    (fetches (es.map Prod.fst)).length = 22 ∧ ∀ p ∈ es, ∀ u f, p.1 = .fetch u f → 121/2 ≤ p.2 ∧ p.2 ≤ 61 := by
  refine ⟨(run (sample "1921") readings 50).1.zip times, by decide +kernel, timed_of (by decide +kernel) (by decide +kernel), by decide +kernel,
    by decide +kernel, ?_⟩
  have h : ∀ p ∈ (run (sample "1921") readings 50).1.zip times, (match p.1 with | .fetch _ _ => decide (121/2 ≤ p.2 ∧ p.2 ≤ 61) | _ => true) = true := by
    decide +kernel
  intro p hp u f he
  have := h p hp
  rw [he] at this
  simpa using this

/-- Two years, to the end. -/
example : run ⟨"id", "secret", "2014", "2015"⟩ (fun _ => 7) 10 = ([.clock 7, .print "2014 ... ", .fetch
    "http://api.aerisapi.com/sunmoon/moonphases/london,uk?from=2014/01/01&to=2014/12/31&limit=250&client_id=id&client_secret=secret"
    "astro-2014.json", .print "OK\n", .print "2015 ... ", .fetch
    "http://api.aerisapi.com/sunmoon/moonphases/london,uk?from=2015/01/01&to=2015/12/31&limit=250&client_id=id&client_secret=secret"
    "astro-2015.json", .print "OK\n"], some 0) := by decide +kernel

/-- The repository's years. -/
example : ∃ n, (run (sample "2040") (fun k => k) n).2 = some 0 :=
  c79_ends (a := sample "2040") (f := 1900) (t := 2040) (by decide) (by decide) (by decide +kernel) (by decide +kernel)
    (fun m => ⟨m.toNat, fun j hj => by show m ≤ (j : Int); omega⟩)

/-- No last year. -/
example : run (sample "") (fun _ => 0) 5 =
    ([.print "Usage: CLIENT_ID=appid CLIENT_SECRET=secretkey ./get-astromoons.sh FROM_YEAR TO_YEAR\n"], some 1) := by decide +kernel

/-- The second batch, with the waiting before it. -/
example : ((run (sample "1911") (fun k => 30 * k) 100).1.drop 34).take 8 = [.print "1911 ... ", .clock 30, .print "\r1911 ... wait: 30 ", .sleep,
    .clock 60, .print "\r1911 ... wait: 0 ", .sleep, .clock 90] ∧ (run (sample "1911") (fun k => 30 * k) 100).2 = some 0 := by decide +kernel

/-- Three batches, and their times. -/
def late : List (Event × ℚ) :=
  (run (sample "1922") (fun k => 61 * ((k : Int) - (k : Int) / 2)) 60).1.zip
    (List.replicate 34 0 ++ List.replicate 35 61 ++ List.replicate 5 122)

/-- A case of `c79_rate`: the first question and the 23rd. -/
example : late.map Prod.fst = (run (sample "1922") (fun k => 61 * ((k : Int) - (k : Int) / 2)) 60).1 ∧ Timed late ∧
    late = late.take 2 ++ (.fetch (wanted "id" "secret" "1900").1 "astro-1900.json", 0) ::
      ((late.drop 3).take 69 ++ (.fetch (wanted "id" "secret" "1922").1 "astro-1922.json", 122) :: [(.print "OK\n", 122)]) ∧
    (fetches (((late.drop 3).take 69).map Prod.fst)).length = 21 :=
  ⟨by decide +kernel, timed_of (by decide +kernel) (by decide +kernel), by decide +kernel, by decide +kernel⟩

/-- A leading zero without 8 or 9: octal, so that 0100 is followed by 65. -/
example : (fetches (run ⟨"id", "secret", "0100", "100"⟩ (fun k => 61 * k) 8).1).map Prod.snd =
    ["astro-0100.json", "astro-65.json", "astro-66.json", "astro-67.json"] := by decide +kernel

/-- With an 8 or 9. -/
example : (fetches (run ⟨"id", "secret", "0900", "1100"⟩ (fun k => 61 * k) 12).1).map Prod.snd = List.replicate 6 "astro-0900.json" ∧
    ∀ n, (run ⟨"id", "secret", "0900", "1100"⟩ (fun k => 61 * k) n).2 = none :=
  ⟨by decide +kernel, fun n => ((c79_leading_zero (a := ⟨"id", "secret", "0900", "1100"⟩) (m := 900) (t := 1100) (by decide) (by decide)
    (by decide +kernel) (by decide +kernel) (by decide +kernel) (by decide) _).1 n).1⟩

/-- The hypothesis of `c79_first_minute`. -/
example : (fetches (run (sample "2040") (fun k => min k 60) 200).1).length = 11 := by decide +kernel

example : (Verif.Model.astroPath 2014) = "/data/astro/astro-2014.json".toList := by decide +kernel

end Verif.Props.GetAstro
