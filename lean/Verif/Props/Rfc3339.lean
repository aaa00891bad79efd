import Verif.Spec.Rfc3339
import Verif.Lemmas.Unmarshal
import Verif.Props.Cli
import Verif.Props.Json
/-
C61, first part: `time.Time.UnmarshalJSON` accepts the texts of RFC 3339.
-/
set_option autoImplicit false

namespace Verif.Props
open Verif.Go Verif.Model Verif.Model.Unmarshal Verif.Spec Verif.Lemmas Verif.Lemmas.Unmarshal

/-- The number of a list of digits. -/
def valueOf (ds : List Char) : Int := ds.foldl (fun a c => a * 10 + ((c.toNat : Int) - 48)) 0

theorem digitOf_toNat (n : Nat) : (digitOf n).toNat = 48 + n % 10 := by
  have : ∀ k : Fin 10, (Char.ofNat (48 + k.val)).toNat = 48 + k.val := by decide +kernel
  exact this ⟨n % 10, by omega⟩

theorem isDigit_digitOf (n : Nat) : isDigit (digitOf n) = true := by
  have : ∀ k : Fin 10, isDigit (Char.ofNat (48 + k.val)) = true := by decide +kernel
  exact this ⟨n % 10, by omega⟩

theorem isDigit_some {c : Char} (h : isDigit c = true) : ∃ n : Nat, n < 10 ∧ c = digitOf n := by
  rw [isDigit_iff] at h
  have h1 : '0'.toNat ≤ c.toNat := h.1
  have h2 : c.toNat ≤ '9'.toNat := h.2
  have e0 : '0'.toNat = 48 := rfl
  have e9 : '9'.toNat = 57 := rfl
  rw [e0] at h1
  rw [e9] at h2
  refine ⟨c.toNat - 48, by omega, ?_⟩
  unfold digitOf
  have : 48 + (c.toNat - 48) % 10 = c.toNat := by omega
  rw [this, Char.ofNat_toNat]

theorem valueOf_pad (k n : Nat) (h : n < 10 ^ k) : valueOf (pad k n) = n := by
  induction k generalizing n with
  | zero => have : n = 0 := by omega
            subst this; rfl
  | succ k ih =>
    have hn : n / 10 < 10 ^ k := by rw [pow_succ] at h; omega
    have := ih _ hn
    unfold valueOf at this ⊢
    rw [pad, List.foldl_append, this, List.foldl_cons, List.foldl_nil, digitOf_toNat]
    omega

theorem pad_all (k n : Nat) : ∀ c ∈ pad k n, isDigit c = true := by
  induction k generalizing n with
  | zero => intro c hc; exact absurd hc (by simp [pad])
  | succ k ih =>
    intro c hc
    rw [pad, List.mem_append] at hc
    rcases hc with hc | hc
    · exact ih _ _ hc
    · rw [List.mem_singleton] at hc
      rw [hc]; exact isDigit_digitOf n

theorem digits_pad (k : Nat) : ∀ ds : List Char, ds.length = k → (∀ c ∈ ds, isDigit c = true) → ∃ n, n < 10 ^ k ∧ ds = pad k n := by
  induction k with
  | zero => intro ds h _; exact ⟨0, by simp, by rw [List.length_eq_zero_iff] at h; rw [h]; rfl⟩
  | succ k ih =>
    intro ds h hd
    have hne : ds ≠ [] := by rintro rfl; simp at h
    have e := List.dropLast_append_getLast hne
    obtain ⟨n, hn, h1⟩ := ih ds.dropLast (by rw [List.length_dropLast, h]; rfl)
      fun c hc => hd c (List.mem_of_mem_dropLast hc)
    obtain ⟨m, hm, h2⟩ := isDigit_some (hd _ (List.getLast_mem hne))
    refine ⟨n * 10 + m, by rw [pow_succ]; omega, ?_⟩
    rw [← e, h1, h2, pad]
    have e1 : (n * 10 + m) / 10 = n := by omega
    have e2 : digitOf (n * 10 + m) = digitOf m := by unfold digitOf; congr 1; omega
    rw [e1, e2]

theorem parseUint_iff (ds : List Char) (lo hi x : Int) :
    parseUint ds lo hi = some x ↔ ∃ n : Nat, n < 10 ^ ds.length ∧ ds = pad ds.length n ∧ x = n ∧ lo ≤ x ∧ x ≤ hi := by
  unfold parseUint
  constructor
  · intro h
    split_ifs at h with h1
    dsimp only at h
    split_ifs at h with h2
    cases h
    rw [List.all_eq_true] at h1
    obtain ⟨n, hn, e⟩ := digits_pad _ ds rfl h1
    have := valueOf_pad _ n hn
    rw [← e] at this
    refine ⟨n, hn, e, this, ?_, ?_⟩ <;> omega
  · rintro ⟨n, hn, e, rfl, h1, h2⟩
    have := valueOf_pad _ n hn
    rw [← e] at this
    unfold valueOf at this
    rw [if_pos (by rw [List.all_eq_true, e]; exact pad_all _ _)]
    simp only [this]
    rw [if_neg (by omega)]

theorem parseUint_pad (k n : Nat) (lo hi : Int) (hn : n < 10 ^ k) (h1 : lo ≤ n) (h2 : n ≤ hi) : parseUint (pad k n) lo hi = some (n : Int) := by
  rw [parseUint_iff]
  exact ⟨n, by rw [pad_length]; exact hn, by rw [pad_length], rfl, h1, h2⟩

theorem pad_add (a b n : Nat) : pad (a + b) n = pad a (n / 10 ^ b) ++ pad b n := by
  induction b generalizing n with
  | zero => simp [pad]
  | succ b ih =>
    rw [← Nat.add_assoc, pad, ih, pad, Nat.div_div_eq_div_mul, Nat.pow_succ', List.append_assoc]

theorem nanoseconds_pad (k n : Nat) (hn : n < 10 ^ k) : nanoseconds (pad k n) = (n * 10 ^ 9 / 10 ^ k : Nat) := by
  have val := valueOf_pad
  unfold valueOf at val
  unfold nanoseconds
  by_cases hk : k ≤ 9
  · have e : (pad k n).take 9 = pad k n := List.take_of_length_le (by rw [pad_length]; exact hk)
    simp only [e, val _ _ hn, pad_length]
    have : n * 10 ^ 9 / 10 ^ k = n * 10 ^ (9 - k) := by
      have : (10 : Nat) ^ 9 = 10 ^ (9 - k) * 10 ^ k := by rw [← pow_add]; congr 1; omega
      rw [this, ← Nat.mul_assoc]
      exact Nat.mul_div_cancel _ (by positivity)
    rw [this]
    push_cast
    rfl
  · obtain ⟨b, rfl⟩ : ∃ b, k = 9 + b := ⟨k - 9, by omega⟩
    have hq : n / 10 ^ b < 10 ^ 9 := by
      rw [Nat.div_lt_iff_lt_mul (by positivity), ← pow_add]; exact hn
    have e : (pad (9 + b) n).take 9 = pad 9 (n / 10 ^ b) := by
      rw [pad_add, List.take_left' (pad_length _ _)]
    simp only [e, val _ _ hq, pad_length]
    have : n * 10 ^ 9 / 10 ^ (9 + b) = n / 10 ^ b := by
      rw [pow_add, Nat.mul_comm (10 ^ 9), Nat.mul_div_mul_right _ _ (by positivity)]
    rw [this]
    simp

theorem offset_head {off : List Char} {o : Int} (h : IsOffset off o) : ∃ c r, off = c :: r ∧ isDigit c = false ∧ c ≠ '.' := by
  rcases h with ⟨rfl, _⟩ | ⟨_, _, _, _, ⟨rfl, _⟩ | ⟨rfl, _⟩⟩
  · exact ⟨_, _, rfl, rfl, by decide⟩
  · exact ⟨_, _, rfl, rfl, by decide⟩
  · exact ⟨_, _, rfl, rfl, by decide⟩

theorem parseFraction_complete {frac off : List Char} {ns : Nat} {o : Int} (hf : IsFraction frac ns) (ho : IsOffset off o) :
    parseFraction (frac ++ off) = ((ns : Int), off) := by
  obtain ⟨c, r, rfl, hc, hd⟩ := offset_head ho
  rcases hf with ⟨rfl, rfl⟩ | ⟨k, n, hk, hn, rfl, rfl⟩
  · unfold parseFraction
    split
    · rename_i heq
      rw [List.nil_append, List.cons.injEq] at heq
      exact absurd heq.1 hd
    · rfl
  · obtain ⟨h1, h2⟩ := takeWhile_digits (pad_all k n) (rest := c :: r) (by rintro d r' h; cases h; exact hc)
    rw [List.cons_append, parseFraction, h1, h2]
    split
    · rename_i heq
      have := pad_length k n
      rw [heq] at this
      simp at this
      omega
    · rw [nanoseconds_pad k n hn]

theorem parseOffset_iff (t : List Char) (o : Int) : parseOffset t = some o ↔ IsOffset t o := by
  have pad2 : ∀ n, pad 2 n = [digitOf (n / 10), digitOf n] := fun n => rfl
  constructor
  · intro h
    unfold parseOffset at h
    split at h
    · cases h; exact .inl ⟨rfl, rfl⟩
    · rename_i s a b c d
      split at h
      · rename_i hr mm h1 h2
        rw [parseUint_iff] at h1 h2
        obtain ⟨p, hp, e1, rfl, h3, h4⟩ := h1
        obtain ⟨q, hq, e2, rfl, h5, h6⟩ := h2
        simp only [List.length_cons, List.length_nil, Nat.reduceAdd] at e1 e2
        refine .inr ⟨p, q, by omega, by omega, ?_⟩
        split_ifs at h with g1 g2
        · cases h
          exact .inl ⟨by rw [g1, ← e1, ← e2]; rfl, by push_cast; ring⟩
        · cases h
          exact .inr ⟨by rw [g2, ← e1, ← e2]; rfl, by push_cast; ring⟩
      · cases h
    · cases h
  · intro h
    rcases h with ⟨rfl, rfl⟩ | ⟨p, q, hp, hq, ⟨rfl, rfl⟩ | ⟨rfl, rfl⟩⟩
    · rfl
    · have h1 := parseUint_pad 2 p 0 23 (by omega) (by omega) (by omega)
      have h2 := parseUint_pad 2 q 0 59 (by omega) (by omega) (by omega)
      rw [pad2] at h1 h2 ⊢
      rw [pad2]
      simp only [List.cons_append, List.nil_append, parseOffset, h1, h2, if_true]
      push_cast; rfl
    · have h1 := parseUint_pad 2 p 0 23 (by omega) (by omega) (by omega)
      have h2 := parseUint_pad 2 q 0 59 (by omega) (by omega) (by omega)
      rw [pad2] at h1 h2 ⊢
      rw [pad2]
      simp only [List.cons_append, List.nil_append, parseOffset, h1, h2, if_true]
      rw [if_neg (by decide)]
      push_cast; rfl

theorem parseFraction_sound {t off : List Char} {ns o : Int} (h : parseFraction t = (ns, off)) (ho : IsOffset off o) :
    ∃ k frac, ns = (k : Nat) ∧ IsFraction frac k ∧ t = frac ++ off := by
  unfold parseFraction at h
  split at h
  · rename_i rest
    split at h
    · cases h
      obtain ⟨c, r, h1, h2, h3⟩ := offset_head ho
      cases h1
      exact absurd rfl h3
    · rename_i hne
      cases h
      have hd : ∀ c ∈ rest.takeWhile isDigit, isDigit c = true := fun c hc => List.mem_takeWhile_imp hc
      obtain ⟨n, hn, e⟩ := digits_pad _ _ rfl hd
      have hl : 1 ≤ (rest.takeWhile isDigit).length := by
        rcases hq : rest.takeWhile isDigit with _ | ⟨c, r⟩
        · exact absurd hq hne
        · simp
      refine ⟨_, '.' :: rest.takeWhile isDigit, ?_, .inr ⟨_, n, hl, hn, by rw [← e], rfl⟩, ?_⟩
      · rw [← nanoseconds_pad _ n hn, ← e]
      · rw [List.cons_append, List.takeWhile_append_dropWhile]
  · cases h
    exact ⟨0, [], rfl, .inl ⟨rfl, rfl⟩, rfl⟩

theorem date_local {y m d c o : Int} (hm1 : 1 ≤ m) (hm2 : m ≤ 12) (hd1 : 1 ≤ d) (hd2 : d ≤ monthDays y m) (hc0 : 0 ≤ c) (hc1 : c < nsPerDay) :
    IsDate (date y m d c o).day y m d ∧ (date y m d c o).sinceMidnight = c := by
  rw [date_eq]
  unfold nsPerDay at hc1
  constructor
  · refine ⟨monthStart y m, monthStart_iff.2 ⟨hm1, hm2, rfl⟩, ?_, hd1, hd2, hm1, hm2⟩
    unfold Time.day nsPerDay nsPerSec; simp only; omega
  · unfold Time.sinceMidnight nsPerDay nsPerSec; simp only; omega

theorem fraction_lt {s : List Char} {ns : Nat} (h : IsFraction s ns) : ns < 10 ^ 9 := by
  rcases h with ⟨_, rfl⟩ | ⟨k, n, _, hn, _, rfl⟩
  · norm_num
  · rw [Nat.div_lt_iff_lt_mul (by positivity), Nat.mul_comm]
    exact Nat.mul_lt_mul_of_pos_left hn (by norm_num)

/-- C61: a text is accepted as a time exactly if it is one of RFC 3339 (with capital letters and without leap seconds), and the result is the
instant and the offset it says. -/
theorem c61_time (s : List Char) (t : Time) : parseRFC3339 s = some t ↔ IsRfc3339 s t := by
  have pad2 : ∀ n, pad 2 n = [digitOf (n / 10), digitOf n] := fun n => rfl
  have pad4 : ∀ n, pad 4 n = [digitOf (n / 10 / 10 / 10), digitOf (n / 10 / 10), digitOf (n / 10), digitOf n] := fun n => rfl
  constructor
  · intro h
    unfold parseRFC3339 at h
    split at h
    · rename_i y1 y2 y3 y4 m1 m2 d1 d2 h1 h2 i1 i2 s1 s2 rest
      simp only [Option.bind_eq_bind, Option.bind_eq_some_iff] at h
      obtain ⟨y, hy, m, hm, d, hd, hh, hhh, mm, hmm, ss, hss, o, ho, h⟩ := h
      rw [parseUint_iff] at hy hm hd hhh hmm hss
      simp only [List.length_cons, List.length_nil, Nat.reduceAdd] at hy hm hd hhh hmm hss
      obtain ⟨y, _, ey, rfl, ly, uy⟩ := hy
      obtain ⟨m, _, em, rfl, lm, um⟩ := hm
      obtain ⟨d, _, ed, rfl, ld, ud⟩ := hd
      obtain ⟨hh, _, eh, rfl, lh, uh⟩ := hhh
      obtain ⟨mm, _, ei, rfl, li, ui⟩ := hmm
      obtain ⟨ss, _, es, rfl, ls, us⟩ := hss
      rw [parseOffset_iff] at ho
      obtain ⟨ns, frac, hk, hf, hr⟩ := parseFraction_sound (t := rest) (show parseFraction rest = ((parseFraction rest).1, (parseFraction rest).2) from rfl) ho
      rw [daysIn_eq lm um] at ud
      have hlt := fraction_lt hf
      rw [hk] at h
      cases h
      obtain ⟨g1, g2⟩ := date_local (y := y) (m := m) (d := d) (c := ((hh : Int) * 3600 + mm * 60 + ss) * nsPerSec + ns) (o := o)
        lm um ld ud (by unfold nsPerSec; omega) (by unfold nsPerSec nsPerDay; omega)
      refine ⟨y, m, d, hh, mm, ss, ns, frac, _, by omega, by omega, by omega, by omega, g1, ?_, hf, ho, ?_⟩
      · rw [g2]; push_cast; ring
      · rw [← ey, ← em, ← ed, ← eh, ← ei, ← es, ← hr]
        rfl
    · cases h
  · rintro ⟨y, m, d, hh, mm, ss, ns, frac, off, hy, hhh, hmm, hss, hd, hc, hf, ho, rfl⟩
    obtain ⟨_, _, _, d1, d2, m1, m2⟩ := id hd
    have d31 : (d : Int) ≤ 31 := by
      unfold monthDays at d2
      split_ifs at d2 <;> omega
    have py := parseUint_pad 4 y 0 9999 (by omega) (by omega) (by omega)
    have pm := parseUint_pad 2 m 1 12 (by omega) (by omega) (by omega)
    have pd := parseUint_pad 2 d 1 (daysIn m y) (by omega) (by omega) (by rw [daysIn_eq m1 m2]; exact d2)
    have ph := parseUint_pad 2 hh 0 23 (by omega) (by omega) (by omega)
    have pi := parseUint_pad 2 mm 0 59 (by omega) (by omega) (by omega)
    have ps := parseUint_pad 2 ss 0 59 (by omega) (by omega) (by omega)
    have po := (parseOffset_iff _ _).2 ho
    have pf := parseFraction_complete hf ho
    have hlt := fraction_lt hf
    rw [pad4] at py
    rw [pad2] at pm pd ph pi ps
    simp only [pad4, pad2, List.cons_append, List.nil_append]
    unfold parseRFC3339
    simp only [py, pm, pd, ph, pi, ps, pf, po, Option.bind_eq_bind, Option.bind_some, Option.some.injEq]
    obtain ⟨g1, g2⟩ := date_local (y := y) (m := m) (d := d) (c := ((hh : Int) * 3600 + mm * 60 + ss) * nsPerSec + ns) (o := t.offset)
      m1 m2 d1 d2 (by unfold nsPerSec; omega) (by unfold nsPerSec nsPerDay; omega)
    refine time_of_day (isDate_day g1 hd) ?_ rfl
    rw [g2, hc]; push_cast; ring

/-- C61: a time with an offset. -/
example : parseRFC3339 "2015-07-30T12:43:00+02:00".toList = some (date 2015 7 30 ((12 * 60 + 43) * 60 * nsPerSec) 7200) ∧
    parseRFC3339 "2015-02-29T12:43:00Z".toList = none := by decide +kernel

end Verif.Props
